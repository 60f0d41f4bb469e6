import Verif.Lemmas.RuleCompile
/-!
# C42 — rule programs compile to equivalent code that never leaves the stack
-/
namespace Verif

open Spec

variable {O : Type}

theorem genExpr_scoped (e : RExpr) : ∀ (ctx : GenContext O) (is : List Instr), exprScoped ctx.names e → ∃ r, genExpr e ctx is = .ok r := by
  induction e with
  | lit c => intro ctx is _; exact ⟨_, rfl⟩
  | var x => intro ctx is h; exact ⟨_, if_pos h⟩
  | not e ih =>
    intro ctx is h
    obtain ⟨r, hr⟩ := ih ctx is h
    unfold genExpr
    rw [hr]; exact ⟨_, rfl⟩
  | bin op l r ihl ihr =>
    intro ctx is h
    obtain ⟨a, ha⟩ := ihl ctx is h.1
    obtain ⟨c, g⟩ := genExpr_spec l ctx is a ha
    obtain ⟨b, hb⟩ := ihr a.1 a.2 (by rw [g.names]; exact h.2)
    unfold genExpr
    rw [ha]
    simp only [Outcome.bind, hb]
    exact ⟨_, rfl⟩

theorem exprScoped_mono {A B : List String} (h : ∀ x ∈ A, x ∈ B) {e : RExpr} (he : exprScoped A e) : exprScoped B e := by
  induction e with
  | lit c => trivial
  | var x => exact h x he
  | not e ih => exact ih he
  | bin op l r ihl ihr => exact ⟨ihl he.1, ihr he.2⟩

theorem scoped_mono {p : Stmts O} : ∀ {A B : List String} (_ : ∀ x ∈ A, x ∈ B) (_ : Scoped A p), Scoped B p := by
  induction p with
  | nil => intros; trivial
  | define x e rest ih =>
    intro A B h hs
    refine ⟨exprScoped_mono h hs.1, ih ?_ hs.2⟩
    intro y hy
    rcases List.mem_cons.1 hy with rfl | hy
    · exact List.mem_cons_self ..
    · exact List.mem_cons_of_mem _ (h y hy)
  | defineList rest ih => intro A B h hs; exact ih (A := A) h hs
  | ite c b r ihb ihr =>
    intro A B h hs
    refine ⟨exprScoped_mono h hs.1, ihb h hs.2.1, ihr ?_ hs.2.2⟩
    intro y hy
    rcases List.mem_append.1 hy with hy | hy
    · exact List.mem_append_left _ hy
    · exact List.mem_append_right _ (h y hy)
  | order o rest ih => intro A B h hs; exact ih (A := A) h hs

theorem genStmts_scoped (p : Stmts O) : ∀ (ctx : GenContext O) (is : List Instr), Scoped ctx.names p →
    ∃ r, genStmts p ctx is = .ok r ∧ ∀ x ∈ defined p, x ∈ r.1.names := by
  induction p with
  | nil => intro ctx is _; exact ⟨_, rfl, by simp [defined]⟩
  | defineList rest ih => intro ctx is h; exact ih ctx is h
  | order o rest ih => intro ctx is h; exact ih { ctx with orders := ctx.orders ++ [o] } _ h
  | define x e rest ih =>
    intro ctx is h
    obtain ⟨a, ha⟩ := genExpr_scoped e ctx is h.1
    obtain ⟨c, g⟩ := genExpr_spec e ctx is a ha
    obtain ⟨n1, n2, -⟩ := addLocal_names a.1 x
    obtain ⟨r, hr, hd⟩ := ih (a.1.addLocal x).free (a.2 ++ [.storeA ((a.1.addLocal x).names.idxOf x)]) (scoped_mono (p := rest) (A := x :: ctx.names) (by
      intro y hy
      show y ∈ (a.1.addLocal x).names
      rcases List.mem_cons.1 hy with rfl | hy
      · exact n2
      · exact n1.subset (by rw [g.names]; exact hy)) h.2)
    unfold genStmts
    rw [ha]
    simp only [Outcome.bind]
    refine ⟨r, hr, ?_⟩
    intro y hy
    rcases List.mem_cons.1 hy with rfl | hy
    · obtain ⟨c2, g2⟩ := genStmts_spec rest _ _ r hr
      exact g2.names.subset n2
    · exact hd y hy
  | ite cond body rest ihb ihr =>
    intro ctx is h
    obtain ⟨a, ha⟩ := genExpr_scoped cond ctx is h.1
    obtain ⟨c, g⟩ := genExpr_spec cond ctx is a ha
    obtain ⟨b, hb, hdb⟩ := ihb a.1.free (a.2 ++ [.jumpZero 0]) (by show Scoped a.1.names body; rw [g.names]; exact h.2.1)
    obtain ⟨cb, gb⟩ := genStmts_spec body _ _ b hb
    obtain ⟨r, hr, hdr⟩ := ihr b.1 (b.2.set a.2.length (.jumpZero b.2.length)) (scoped_mono (p := rest) (A := defined body ++ ctx.names) (by
      intro y hy
      rcases List.mem_append.1 hy with hy | hy
      · exact hdb y hy
      · exact gb.names.subset (by show y ∈ a.1.names; rw [g.names]; exact hy)) h.2.2)
    obtain ⟨cr, gr⟩ := genStmts_spec rest _ _ r hr
    unfold genStmts
    rw [ha]
    simp only [Outcome.bind, hb]
    refine ⟨r, hr, ?_⟩
    intro y hy
    rcases List.mem_append.1 hy with hy | hy
    · exact gr.names.subset (hdb y hy)
    · exact hdr y hy

theorem initialContext_spec (globals : List String) (hn : globals.Nodup) :
    (initialContext globals : GenContext O) = { current := 0, maxNeeded := 0, names := globals, initialNumVariables := globals.length, orders := [] } := by
  have : ∀ (gs : List String) (c : GenContext O), (c.names ++ gs).Nodup →
      gs.foldl GenContext.addGlobal c = { c with names := c.names ++ gs, initialNumVariables := c.initialNumVariables + gs.length } := by
    intro gs
    induction gs with
    | nil => intro c _; simp
    | cons g gs ih =>
      intro c h
      rw [List.foldl_cons]
      have hg : g ∉ c.names := by
        rw [List.nodup_append] at h
        exact fun hm => h.2.2 g hm g (List.mem_cons_self ..) rfl
      have e : c.addGlobal g = { c with names := c.names ++ [g], initialNumVariables := c.initialNumVariables + 1 } := by
        unfold GenContext.addGlobal GenContext.addLocal
        rw [if_neg hg]
      rw [e, ih _ (by simpa using h)]
      simp only [List.append_assoc, List.singleton_append, List.length_cons]
      congr 1; omega
  unfold initialContext
  rw [this globals _ (by simpa using hn)]
  simp

theorem lookup_idxOf (live : List (String × Cell)) (x : String) (hx : x ∈ live.map Prod.fst) :
    (live.map Prod.snd)[(live.map Prod.fst).idxOf x]? = some (initialValues live x) := by
  unfold initialValues
  induction live with
  | nil => simp at hx
  | cons a live ih =>
    obtain ⟨n, v⟩ := a
    by_cases e : x = n
    · subst e; simp
    · have hm : x ∈ live.map Prod.fst := by
        rw [List.map_cons, List.mem_cons] at hx
        exact hx.resolve_left e
      have h1 : ((n, v) :: live).lookup x = live.lookup x := by
        rw [List.lookup_cons]
        simp [beq_eq_false_iff_ne.2 e]
      rw [h1, List.map_cons, List.map_cons, List.idxOf_cons_ne _ (Ne.symm e), List.getElem?_cons_succ]
      exact ih hm

theorem mapM_of_map {α β : Type} {f : α → Option β} {l : List α} {os : List β} (h : l.map f = os.map some) : l.mapM f = some os := by
  induction l generalizing os with
  | nil =>
    cases os with
    | nil => rfl
    | cons => simp at h
  | cons a l ih =>
    cases os with
    | nil => simp at h
    | cons o os =>
      simp only [List.map_cons, List.cons.injEq] at h
      rw [List.mapM_cons, h.1, ih h.2]
      rfl

/-- C42. For every rule program whose variables are defined before use and every live information (distinct names), compiling succeeds; the machine stops within as many
steps as there are instructions; if the program's meaning is a list of configuration orders, the machine halts and exactly these orders
are applied, in this order; otherwise (a type error) the machine reports a type error. In no case is the stack or the program accessed out of bounds. -/
theorem C42_equivalent (p : Stmts O) (live : List (String × Cell)) (hlive : (live.map Prod.fst).Nodup) (hp : Scoped (live.map Prod.fst) p) :
    ∃ ctx prog, generateCode p (initialContext (live.map Prod.fst)) = .ok (ctx, prog) ∧ ∀ fuel ≥ prog.instructions.length,
      match exec p (initialValues live) with
      | some (_, orders) => ∃ idx, applicableOrders p live fuel = .ok (.done idx, some orders)
      | none => applicableOrders p live fuel = .ok (.failed .type, none) := by
  have hi := initialContext_spec (O := O) _ hlive
  obtain ⟨r, hr, -⟩ := genStmts_scoped p (initialContext (live.map Prod.fst)) [.reserve 0] (by rw [hi]; exact hp)
  obtain ⟨code, g⟩ := genStmts_spec p _ _ r hr
  have gn : live.map Prod.fst <+: r.1.names := by have := g.names; rw [hi] at this; exact this
  have gi : r.1.initialNumVariables = live.length := by rw [g.init, hi]; simp
  have gd : r.1.names.Nodup := g.nodup (by rw [hi]; exact hlive)
  have gl : live.length ≤ r.1.names.length := by have := gn.length_le; simpa using this
  have hset : r.2.set 0 (.reserve (r.1.names.length - r.1.initialNumVariables)) = [.reserve (r.1.names.length - live.length)] ++ code := by
    rw [g.app, gi]; rfl
  have hgen : generateCode p (initialContext (live.map Prod.fst)) = .ok (r.1,
      { instructions := [.reserve (r.1.names.length - live.length)] ++ code ++ [.halt], neededStackSize := r.1.names.length - live.length + r.1.maxNeeded }) := by
    unfold generateCode
    rw [hr]
    simp only [Outcome.bind, hset]
    rw [gi]
  refine ⟨_, _, hgen, ?_⟩
  intro fuel hfuel
  simp only [List.length_append, List.length_singleton] at hfuel
  -- the machine
  have hcode : CodeAt ([.reserve (r.1.names.length - live.length)] ++ code ++ [.halt]) 1 code := by
    intro i c hc
    rw [List.append_assoc, List.getElem?_append_right (by simp), List.getElem?_append_left]
    · simpa using hc
    · have := (List.getElem?_eq_some_iff.1 hc).1
      simp only [List.length_singleton]; omega
  have hhalt : ([.reserve (r.1.names.length - live.length)] ++ code ++ [.halt] : List Instr)[1 + code.length]? = some .halt := by
    rw [List.getElem?_append_right (by simp; omega)]
    simp [Nat.add_comm]
  generalize hst : ([.reserve (r.1.names.length - live.length)] ++ code ++ [.halt] : List Instr) = P at *
  have hfirst : P[0]? = some (.reserve (r.1.names.length - live.length)) := by rw [← hst]; rfl
  let stack0 := live.map Prod.snd ++ List.replicate (r.1.names.length - live.length + r.1.maxNeeded) (Cell.bool false)
  have hvars : VarsOk r.1.names (initialValues live) stack0 := by
    intro x hx
    by_cases hg : x ∈ live.map Prod.fst
    · rw [idxOf_prefix gn hg, List.getElem?_append_left (by have := List.idxOf_lt_length_iff.2 hg; simpa using this)]
      exact lookup_idxOf live x hg
    · obtain ⟨t, ht⟩ := gn
      have hlt := List.idxOf_lt_length_iff.2 hx
      have hge : live.length ≤ r.1.names.idxOf x := by
        rw [← ht, List.idxOf_append_of_notMem hg]; simp
      rw [List.getElem?_append_right (by simpa using hge), List.getElem?_replicate, if_pos (by simp only [List.length_map]; omega)]
      congr 1
      unfold initialValues
      rw [List.lookup_eq_none_iff.2]
      · rfl
      · intro q hq
        rw [bne_iff_ne]
        rintro rfl
        exact hg (List.mem_map.2 ⟨q, hq, rfl⟩)
  let st1 : VMState := { pc := 1, sp := ((r.1.names.length : Nat) : Int) - 1, halted := false, removed := [], stack := stack0 }
  have hgo0 : Goes P { pc := 0, sp := ((live.map Prod.snd).length : Int) - 1, halted := false, removed := [], stack := stack0 } 1 st1 := by
    refine goes_step rfl hfirst ?_
    simp only [executeInstruction, pure, Except.pure]
    congr 2
    simp only [List.length_map]; omega
  have hrun := g.runs P r.1.names r.1.orders (initialValues live) st1 hcode List.prefix_rfl gd List.prefix_rfl rfl rfl hvars
    (by rw [hi]; rfl) (by simp only [st1, stack0, List.length_append, List.length_map, List.length_replicate]; omega)
  unfold applicableOrders
  rw [hgen]
  simp only [Outcome.bind]
  unfold vmExecute
  unfold StmtsRun at hrun
  cases he : exec p (initialValues live) with
  | none =>
    rw [he] at hrun
    obtain ⟨k, hk, hf⟩ := hrun
    have := (hgo0.fails hf).mono (l := fuel) (by omega) 0
    simp only [Nat.add_zero] at this
    simp only [stack0] at this
    rw [this]
  | some q =>
    obtain ⟨ρ', orders⟩ := q
    rw [he] at hrun
    obtain ⟨k, hk, s', out, hg, -, -, ho⟩ := hrun
    have hgo := (hgo0.trans hg).trans (goes_step (st' := { st1 with pc := 1 + code.length + 1, stack := s', removed := out, halted := true }) rfl hhalt rfl)
    obtain ⟨d, hd⟩ := Nat.exists_eq_add_of_le (show 1 + k + 1 ≤ fuel by omega)
    have h1 := hgo d
    rw [← hd] at h1
    simp only [stack0] at h1
    have h2 : ∀ (s : VMState), s.halted = true → vmRun P d s = .done s.removed := by
      intro s hs
      cases d <;> simp [vmRun, hs]
    rw [h2 _ rfl] at h1
    refine ⟨out, ?_⟩
    rw [h1]
    simp only
    rw [mapM_of_map ho]

/-- Type safety of expressions. -/
theorem eval_typed {Γ : String → RTy} {assigned : List String} {ρ : String → Cell} (hρ : ∀ x ∈ assigned, tyOf (ρ x) = Γ x) {e : RExpr} {t : RTy}
    (h : HasTy Γ assigned e t) : ∃ v, eval ρ e = some v ∧ tyOf v = t := by
  induction h with
  | lit c => exact ⟨c, rfl, rfl⟩
  | var hx => exact ⟨_, rfl, hρ _ hx⟩
  | not h ih =>
    obtain ⟨v, hv, ht⟩ := ih
    cases v <;> simp only [tyOf, reduceCtorEq] at ht
    simp only [eval, hv]
    exact ⟨_, rfl, rfl⟩
  | cmp hop hl hr ihl ihr =>
    obtain ⟨v, hv, htv⟩ := ihl
    obtain ⟨w, hw, htw⟩ := ihr
    simp only [eval, hv, hw]
    subst htv
    rcases hop with rfl | rfl <;> cases v <;> cases w <;> simp only [tyOf, reduceCtorEq, RTy.opt.injEq] at htw <;>
      first
        | exact ⟨_, rfl, rfl⟩
        | (subst htw; simp only [opMeaning, cellLess, if_true]; exact ⟨_, rfl, rfl⟩)
  | logic hop hl hr ihl ihr =>
    obtain ⟨v, hv, htv⟩ := ihl
    obtain ⟨w, hw, htw⟩ := ihr
    simp only [eval, hv, hw]
    cases v <;> simp only [tyOf, reduceCtorEq] at htv
    cases w with
    | bool b => rcases hop with rfl | rfl <;> cases b <;> exact ⟨_, rfl, rfl⟩
    | double _ | size _ | opt _ _ => simp only [tyOf, reduceCtorEq] at htw
  | arith hl hr ihl ihr =>
    obtain ⟨v, hv, htv⟩ := ihl
    obtain ⟨w, hw, htw⟩ := ihr
    simp only [eval, hv, hw]
    cases v <;> simp only [tyOf, reduceCtorEq] at htv <;> cases w <;> simp only [tyOf, reduceCtorEq] at htw <;> exact ⟨_, rfl, rfl⟩

theorem exec_typed {Γ : String → RTy} {p : Stmts O} : ∀ {assigned : List String} {ρ : String → Cell}, (∀ x ∈ assigned, tyOf (ρ x) = Γ x) →
    WellTyped Γ assigned p → ∃ ρ' os, exec p ρ = some (ρ', os) ∧ ∀ x ∈ assigned, tyOf (ρ' x) = Γ x := by
  induction p with
  | nil => intro A ρ h _; exact ⟨ρ, [], rfl, h⟩
  | defineList rest ih => intro A ρ h ht; exact ih h ht
  | order o rest ih =>
    intro A ρ h ht
    obtain ⟨ρ', os, he, h'⟩ := ih h (show WellTyped Γ A rest from ht)
    exact ⟨ρ', o :: os, by simp only [exec, he]; rfl, h'⟩
  | define x e rest ih =>
    intro A ρ h ht
    obtain ⟨v, hv, htv⟩ := eval_typed h ht.1
    obtain ⟨ρ', os, he, h'⟩ := ih (ρ := assign ρ x v) (assigned := x :: A) (by
      intro y hy
      unfold assign
      by_cases e : y = x
      · subst e; rw [if_pos rfl]; exact htv
      · rw [if_neg e]
        exact h y ((List.mem_cons.1 hy).resolve_left e)) ht.2
    exact ⟨ρ', os, by simp only [exec, hv, he], fun y hy => h' y (List.mem_cons_of_mem _ hy)⟩
  | ite c b r ihb ihr =>
    intro A ρ h ht
    obtain ⟨v, hv, htv⟩ := eval_typed h ht.1
    cases v with
    | bool t =>
      cases t with
      | false =>
        obtain ⟨ρ', os, he, h'⟩ := ihr h ht.2.2
        exact ⟨ρ', os, by simp only [exec, hv, he], h'⟩
      | true =>
        obtain ⟨ρ1, o1, he1, h1⟩ := ihb h ht.2.1
        obtain ⟨ρ', os, he, h'⟩ := ihr h1 ht.2.2
        exact ⟨ρ', o1 ++ os, by simp only [exec, hv, he1, he]; rfl, h'⟩
    | double _ | size _ | opt _ _ => simp only [tyOf, reduceCtorEq] at htv

/-- C42: a program in which every operator gets operands of the right types and every variable certainly has a value when used always halts normally. -/
theorem C42_well_typed_halts (p : Stmts O) (live : List (String × Cell)) (hlive : (live.map Prod.fst).Nodup) (hp : Scoped (live.map Prod.fst) p)
    (Γ : String → RTy) (hΓ : ∀ x ∈ live.map Prod.fst, tyOf (initialValues live x) = Γ x) (ht : WellTyped Γ (live.map Prod.fst) p) :
    ∃ orders bound, ∀ fuel ≥ bound, ∃ idx, applicableOrders p live fuel = .ok (.done idx, some orders) := by
  obtain ⟨ctx, prog, -, h⟩ := C42_equivalent p live hlive hp
  obtain ⟨ρ', os, he, -⟩ := exec_typed hΓ ht
  refine ⟨os, prog.instructions.length, fun fuel hf => ?_⟩
  have := h fuel hf
  rw [he] at this
  exact this

/-- `define limit = 10 * 2.5; if (numParticles > limit) and not "false": o1; if numCells < 3: o2; endif endif  o3` -/
def exRules : Stmts String :=
  .define "limit" (.bin (.arith .mul) (.lit (.size 10)) (.lit (.double (5/2))))
    (.ite (.bin .and (.bin .greater (.var "numParticles") (.var "limit")) (.not (.lit (.bool false))))
      (.order "o1" (.ite (.bin .less (.var "numCells") (.lit (.size 3))) (.order "o2" .nil) .nil))
      (.order "o3" .nil))

/-- The hypotheses are met, and the program means what one expects. -/
example : Scoped ["numParticles", "numCells"] exRules ∧
    (exec exRules (initialValues [("numParticles", .size 26), ("numCells", .size 7)])).map Prod.snd = some ["o1", "o3"] ∧
    (exec exRules (initialValues [("numParticles", .size 25), ("numCells", .size 1)])).map Prod.snd = some ["o3"] := by
  refine ⟨by simp [exRules, Scoped, exprScoped, defined], by decide +kernel, by decide +kernel⟩

example : applicableOrders exRules [("numParticles", .size 26), ("numCells", .size 2)] 100 = .ok (.done [0, 1, 2], some ["o1", "o2", "o3"]) := by
  decide +kernel

example : WellTyped (fun _ => RTy.num) ["numParticles", "numCells"] exRules := by
  refine ⟨.arith (.lit _) (.lit _), .logic (.inl rfl) (.cmp (.inr rfl) (.var (by simp)) (.var (by simp))) (.not (.lit _)), ⟨?_, trivial, trivial⟩, trivial⟩
  exact .cmp (.inl rfl) (.var (by simp)) (.lit (.size 3))

/-- A variable defined only in a branch that is not taken silently holds `false`; using it as a number is then a type error although the program text
defines it as a number. (Why `WellTyped` does not count the definitions of an `if`.) -/
theorem C42_conditional_definition_fails :
    ∃ (p : Stmts String) (live : List (String × Cell)), (live.map Prod.fst).Nodup ∧ Scoped (live.map Prod.fst) p ∧
      applicableOrders p live 100 = .ok (.failed .type, none) :=
  ⟨.ite (.bin .less (.var "numCells") (.lit (.size 3))) (.define "limit" (.lit (.size 5)) .nil)
      (.ite (.bin .greater (.var "numCells") (.var "limit")) (.order "o" .nil) .nil),
    [("numCells", .size 7)], by simp, by simp [Scoped, exprScoped, defined], by decide +kernel⟩

end Verif
