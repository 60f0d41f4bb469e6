import Verif.Spec.RuleSemantics
import Mathlib.Data.List.Basic
/-!
Correctness of code generation for the rule language.
-/
namespace Verif

open Spec

variable {O : Type}

/-- `k` rounds of the loop lead from `st` to `st'`. -/
def Goes (P : List Instr) (st : VMState) (k : Nat) (st' : VMState) : Prop := ∀ n, vmRun P (k + n) st = vmRun P n st'

/-- Within `k` rounds the machine stops with a type error. -/
def Fails (P : List Instr) (st : VMState) (k : Nat) : Prop := ∀ n, vmRun P (k + n) st = .failed .type

theorem Goes.refl (P : List Instr) (st : VMState) : Goes P st 0 st := fun n => by rw [Nat.zero_add]

theorem Goes.trans {P : List Instr} {a b c : VMState} {k l : Nat} (h1 : Goes P a k b) (h2 : Goes P b l c) : Goes P a (k + l) c := by
  intro n
  rw [Nat.add_assoc, h1, h2]

theorem Goes.fails {P : List Instr} {a b : VMState} {k l : Nat} (h1 : Goes P a k b) (h2 : Fails P b l) : Fails P a (k + l) := by
  intro n
  rw [Nat.add_assoc, h1, h2]

theorem Fails.mono {P : List Instr} {a : VMState} {k l : Nat} (h : Fails P a k) (hkl : k ≤ l) : Fails P a l := by
  intro n
  obtain ⟨d, rfl⟩ := Nat.exists_eq_add_of_le hkl
  rw [Nat.add_assoc, h]

theorem goes_step {P : List Instr} {st st' : VMState} {i : Instr} (hh : st.halted = false) (hp : P[st.pc]? = some i)
    (he : executeInstruction { st with pc := st.pc + 1 } i = .ok st') : Goes P st 1 st' := by
  intro n
  rw [Nat.add_comm]
  show vmRun P (n + 1) st = _
  rw [hh] at he
  rw [vmRun, hh]
  simp only [Bool.false_eq_true, if_false, hp, he]

theorem fails_step {P : List Instr} {st : VMState} {i : Instr} (hh : st.halted = false) (hp : P[st.pc]? = some i)
    (he : executeInstruction { st with pc := st.pc + 1 } i = .error .type) : Fails P st 1 := by
  intro n
  rw [Nat.add_comm]
  show vmRun P (n + 1) st = _
  rw [hh] at he
  rw [vmRun, hh]
  simp only [Bool.false_eq_true, if_false, hp, he]

/-- The code stands in the program at the position. -/
def CodeAt (P : List Instr) (pos : Nat) (code : List Instr) : Prop := ∀ i c, code[i]? = some c → P[pos + i]? = some c

theorem CodeAt.left {P : List Instr} {pos : Nat} {a b : List Instr} (h : CodeAt P pos (a ++ b)) : CodeAt P pos a := by
  intro i c hi
  apply h
  rw [List.getElem?_append_left (List.getElem?_eq_some_iff.1 hi).1, hi]

theorem CodeAt.right {P : List Instr} {pos : Nat} {a b : List Instr} (h : CodeAt P pos (a ++ b)) : CodeAt P (pos + a.length) b := by
  intro i c hi
  rw [Nat.add_assoc]
  apply h
  rw [List.getElem?_append_right (by omega), Nat.add_sub_cancel_left, hi]

theorem CodeAt.one {P : List Instr} {pos : Nat} {c : Instr} (h : CodeAt P pos [c]) : P[pos]? = some c := h 0 c rfl

theorem stackAt_of {s : List Cell} {i : Int} {j : Nat} {c : Cell} (h : i = j) (hs : s[j]? = some c) : stackAt s i = .ok c := by
  subst h
  unfold stackAt
  rw [if_pos (by omega), Int.toNat_natCast, hs]

theorem stackSet_of {s : List Cell} {i : Int} {j : Nat} (c : Cell) (h : i = j) (hs : j < s.length) : stackSet s i c = .ok (s.set j c) := by
  subst h
  unfold stackSet
  rw [if_pos ⟨by omega, by omega⟩, Int.toNat_natCast]

/-- The variables have their values on the stack. -/
def VarsOk (F : List String) (ρ : String → Cell) (s : List Cell) : Prop := ∀ x ∈ F, s[F.idxOf x]? = some (ρ x)

theorem VarsOk.congr {F : List String} {ρ : String → Cell} {s s' : List Cell} (h : VarsOk F ρ s) (he : ∀ i < F.length, s'[i]? = s[i]?) :
    VarsOk F ρ s' := by
  intro x hx
  rw [he _ (List.idxOf_lt_length_iff.2 hx), h x hx]

theorem idxOf_prefix {A F : List String} (h : A <+: F) {x : String} (hx : x ∈ A) : F.idxOf x = A.idxOf x := by
  obtain ⟨t, rfl⟩ := h
  exact List.idxOf_append_of_mem hx

/-- What running the code of an expression does. -/
def ExprRuns (P : List Instr) (ρ : String → Cell) (e : RExpr) (len : Nat) (st : VMState) (T : Nat) : Prop :=
  match eval ρ e with
  | some v => ∃ k ≤ len, ∃ s', Goes P st k { st with pc := st.pc + len, sp := T, stack := s' } ∧ s'.length = st.stack.length ∧
      (∀ i < T, s'[i]? = st.stack[i]?) ∧ s'[T]? = some v
  | none => ∃ k ≤ len, Fails P st k

theorem binary_ok {st : VMState} {T : Nat} {f : Cell → Cell → Option Cell} {l r v : Cell} (hsp : st.sp = T + 1) (hl : st.stack[T]? = some l)
    (hr : st.stack[T + 1]? = some r) (hv : f l r = some v) : binaryStep st f = .ok { st with sp := T, stack := st.stack.set T v } := by
  unfold binaryStep
  rw [stackAt_of (j := T) (by omega) hl, stackAt_of (j := T + 1) (by omega) hr]
  simp only [bind, Except.bind, hv, orTypeError]
  rw [stackSet_of (j := T) v (by omega) (List.getElem?_eq_some_iff.1 hl).1]
  simp only [pure, Except.pure]
  congr 2
  omega

theorem binary_fail {st : VMState} {T : Nat} {f : Cell → Cell → Option Cell} {l r : Cell} (hsp : st.sp = T + 1) (hl : st.stack[T]? = some l)
    (hr : st.stack[T + 1]? = some r) (hv : f l r = none) : binaryStep st f = .error .type := by
  unfold binaryStep
  rw [stackAt_of (j := T) (by omega) hl, stackAt_of (j := T + 1) (by omega) hr]
  simp only [bind, Except.bind, hv, orTypeError]

theorem binop_ok {st : VMState} {T : Nat} {op : BinOp} {l r v : Cell} (hsp : st.sp = T + 1) (hl : st.stack[T]? = some l)
    (hr : st.stack[T + 1]? = some r) (hv : opMeaning op l r = some v) :
    executeInstruction st op.instr = .ok { st with sp := T, stack := st.stack.set T v } := by
  have hT := (List.getElem?_eq_some_iff.1 hl).1
  have e1 : st.sp - 1 = (T : Int) := by omega
  cases op with
  | less => exact binary_ok hsp hl hr hv
  | greater => exact binary_ok (f := fun l r => (cellLess r l).map .bool) hsp hl hr hv
  | arith a => cases a <;> exact binary_ok hsp hl hr hv
  | and =>
    simp only [BinOp.instr, executeInstruction]
    rw [stackAt_of (j := T + 1) (by omega) hr, stackAt_of (j := T) e1 hl]
    simp only [opMeaning] at hv
    rcases r with (_ | _) | _ | _ | _ <;> try (cases hv; done)
    · cases hv
      simp only [bind, Except.bind, getBool, pure, Except.pure, Bool.false_eq_true, if_false]
      rw [stackSet_of _ e1 hT, e1]
    · rcases l with b | _ | _ | _ <;> cases hv
      simp only [bind, Except.bind, getBool, pure, Except.pure, if_true]
      rw [stackSet_of _ e1 hT, e1]
  | or =>
    simp only [BinOp.instr, executeInstruction]
    rw [stackAt_of (j := T + 1) (by omega) hr, stackAt_of (j := T) e1 hl]
    simp only [opMeaning] at hv
    rcases r with (_ | _) | _ | _ | _ <;> try (cases hv; done)
    · rcases l with b | _ | _ | _ <;> cases hv
      simp only [bind, Except.bind, getBool, pure, Except.pure, Bool.false_eq_true, if_false]
      rw [stackSet_of _ e1 hT, e1]
    · cases hv
      simp only [bind, Except.bind, getBool, pure, Except.pure, if_true]
      rw [stackSet_of _ e1 hT, e1]

theorem binop_fail {st : VMState} {T : Nat} {op : BinOp} {l r : Cell} (hsp : st.sp = T + 1) (hl : st.stack[T]? = some l)
    (hr : st.stack[T + 1]? = some r) (hv : opMeaning op l r = none) :
    executeInstruction st op.instr = .error .type := by
  have e1 : st.sp - 1 = (T : Int) := by omega
  cases op with
  | less => exact binary_fail hsp hl hr hv
  | greater => exact binary_fail (f := fun l r => (cellLess r l).map .bool) hsp hl hr hv
  | arith a => cases a <;> exact binary_fail hsp hl hr hv
  | and =>
    simp only [BinOp.instr, executeInstruction]
    rw [stackAt_of (j := T + 1) (by omega) hr, stackAt_of (j := T) e1 hl]
    simp only [opMeaning] at hv
    rcases r with (_ | _) | _ | _ | _ <;> try rfl
    · cases hv
    · rcases l with b | _ | _ | _ <;> first | rfl | cases hv
  | or =>
    simp only [BinOp.instr, executeInstruction]
    rw [stackAt_of (j := T + 1) (by omega) hr, stackAt_of (j := T) e1 hl]
    simp only [opMeaning] at hv
    rcases r with (_ | _) | _ | _ | _ <;> try rfl
    · rcases l with b | _ | _ | _ <;> first | rfl | cases hv
    · cases hv

/-- Bookkeeping of code generation for an expression. -/
structure ExprGen (e : RExpr) (ctx : GenContext O) (is : List Instr) (ctx' : GenContext O) (is' : List Instr) (code : List Instr) : Prop where
  app : is' = is ++ code
  names : ctx'.names = ctx.names
  orders : ctx'.orders = ctx.orders
  init : ctx'.initialNumVariables = ctx.initialNumVariables
  cur : ctx'.current = ctx.current + 1
  mono : ctx.maxNeeded ≤ ctx'.maxNeeded
  need : ctx.current + 1 ≤ ctx'.maxNeeded
  runs : ∀ (P : List Instr) (F : List String) (ρ : String → Cell) (st : VMState), CodeAt P is.length code → ctx.names <+: F →
    st.pc = is.length → st.halted = false → VarsOk F ρ st.stack → st.sp = ((F.length + ctx.current : Nat) : Int) - 1 →
    F.length + ctx'.maxNeeded ≤ st.stack.length → ExprRuns P ρ e code.length st (F.length + ctx.current)

theorem genExpr_spec (e : RExpr) : ∀ (ctx : GenContext O) (is : List Instr) (r : GenContext O × List Instr), genExpr e ctx is = .ok r →
    ∃ code, ExprGen e ctx is r.1 r.2 code := by
  induction e with
  | lit c =>
    rintro ctx is r h
    cases h
    refine ⟨[.loadC c], ⟨rfl, rfl, rfl, rfl, rfl, le_max_left _ _, le_max_right _ _, ?_⟩⟩
    intro P F ρ st hc hF hpc hh hv hsp hlen
    have hlt : F.length + ctx.current < st.stack.length := by
      have : ctx.current + 1 ≤ ctx.allocate.maxNeeded := le_max_right _ _
      simp only at hlen; omega
    refine ⟨1, le_refl _, st.stack.set (F.length + ctx.current) c, ?_, by simp, ?_, ?_⟩
    · refine goes_step hh (by rw [hpc]; exact hc.one) ?_
      simp only [executeInstruction]
      rw [stackSet_of (j := F.length + ctx.current) c (by omega) hlt]
      simp only [bind, Except.bind, pure, Except.pure]
      congr 2
      omega
    · intro i hi
      rw [List.getElem?_set_ne (by omega)]
    · rw [List.getElem?_set_self hlt]
  | var x =>
    rintro ctx is r h
    unfold genExpr at h
    by_cases hx : x ∈ ctx.names
    · rw [if_pos hx] at h
      cases h
      refine ⟨[.loadA (ctx.names.idxOf x)], ⟨rfl, rfl, rfl, rfl, rfl, le_max_left _ _, le_max_right _ _, ?_⟩⟩
      intro P F ρ st hc hF hpc hh hv hsp hlen
      have hlt : F.length + ctx.current < st.stack.length := by
        have : ctx.current + 1 ≤ ctx.allocate.maxNeeded := le_max_right _ _
        simp only at hlen; omega
      refine ⟨1, le_refl _, st.stack.set (F.length + ctx.current) (ρ x), ?_, by simp, ?_, ?_⟩
      · refine goes_step hh (by rw [hpc]; exact hc.one) ?_
        simp only [executeInstruction]
        rw [stackAt_of (j := ctx.names.idxOf x) (c := ρ x) rfl (by rw [← idxOf_prefix hF hx]; exact hv x (hF.subset hx))]
        simp only [bind, Except.bind]
        rw [stackSet_of (j := F.length + ctx.current) (ρ x) (by omega) hlt]
        simp only [pure, Except.pure]
        congr 2
        omega
      · intro i hi
        rw [List.getElem?_set_ne (by omega)]
      · rw [List.getElem?_set_self hlt]
    · rw [if_neg hx] at h; cases h
  | not e ih =>
    rintro ctx is r h
    unfold genExpr at h
    cases h1 : genExpr e ctx is with
    | ok a =>
      rw [h1] at h
      cases h
      obtain ⟨code, g⟩ := ih ctx is a h1
      refine ⟨code ++ [.not], ⟨by rw [g.app, List.append_assoc], g.names, g.orders, g.init, g.cur, g.mono, g.need, ?_⟩⟩
      intro P F ρ st hc hF hpc hh hv hsp hlen
      have hr := g.runs P F ρ st hc.left hF hpc hh hv hsp hlen
      unfold ExprRuns at hr ⊢
      simp only [eval]
      cases he : eval ρ e with
      | none =>
        rw [he] at hr
        obtain ⟨k, hk, hf⟩ := hr
        exact ⟨k, by rw [List.length_append]; omega, hf⟩
      | some v =>
        rw [he] at hr
        obtain ⟨k, hk, s', hg, hl', hs', hT⟩ := hr
        have hpc' : P[st.pc + code.length]? = some .not := by rw [hpc]; exact hc.right.one
        cases v with
        | bool b =>
          refine ⟨k + 1, by rw [List.length_append]; simp only [List.length_singleton]; omega, s'.set (F.length + ctx.current) (.bool !b), ?_,
            by rw [List.length_set, hl'], ?_, ?_⟩
          · refine hg.trans (goes_step hh hpc' ?_)
            simp only [executeInstruction]
            rw [stackAt_of (j := F.length + ctx.current) rfl hT]
            simp only [bind, Except.bind, getBool]
            rw [stackSet_of (j := F.length + ctx.current) _ rfl (List.getElem?_eq_some_iff.1 hT).1]
            simp only [pure, Except.pure, List.length_append, List.length_singleton, Nat.add_assoc]
          · intro i hi
            rw [List.getElem?_set_ne (by omega), hs' i hi]
          · rw [List.getElem?_set_self (List.getElem?_eq_some_iff.1 hT).1]
        | double _ | size _ | opt _ _ =>
          refine ⟨k + 1, by rw [List.length_append]; simp only [List.length_singleton]; omega, hg.fails (fails_step hh hpc' ?_)⟩
          simp only [executeInstruction]
          rw [stackAt_of (j := F.length + ctx.current) rfl hT]
          rfl
    | throws => rw [h1] at h; cases h
    | ub => rw [h1] at h; cases h
    | diverges => rw [h1] at h; cases h
  | bin op l r ihl ihr =>
    rintro ctx is res h
    unfold genExpr at h
    cases h1 : genExpr l ctx is with
    | ok a =>
      rw [h1] at h
      simp only [Outcome.bind] at h
      cases h2 : genExpr r a.1 a.2 with
      | ok b =>
        rw [h2] at h
        cases h
        obtain ⟨cl, gl⟩ := ihl ctx is a h1
        obtain ⟨cr, gr⟩ := ihr a.1 a.2 b h2
        refine ⟨cl ++ cr ++ [op.instr], ⟨by rw [gr.app, gl.app]; simp, by rw [← gl.names, ← gr.names]; rfl, by rw [← gl.orders, ← gr.orders]; rfl,
          by rw [← gl.init, ← gr.init]; rfl, ?_, gl.mono.trans gr.mono, ?_, ?_⟩⟩
        · show b.1.current - 1 = _
          rw [gr.cur, gl.cur]; rfl
        · have := gr.mono; have := gl.need
          show _ ≤ b.1.maxNeeded
          omega
        · intro P F ρ st hc hF hpc hh hv hsp hlen
          have hlen' : F.length + b.1.maxNeeded ≤ st.stack.length := hlen
          have hl := gl.runs P F ρ st hc.left.left hF hpc hh hv hsp (by have := gr.mono; omega)
          unfold ExprRuns at hl ⊢
          simp only [eval]
          cases he : eval ρ l with
          | none =>
            rw [he] at hl
            obtain ⟨k, hk, hf⟩ := hl
            exact ⟨k, by simp only [List.length_append]; omega, hf⟩
          | some v =>
            rw [he] at hl
            obtain ⟨k, hk, s', hg, hl', hs', hT⟩ := hl
            have hpr : is.length + cl.length = a.2.length := by rw [gl.app, List.length_append]
            have hr := gr.runs P F ρ { st with pc := st.pc + cl.length, sp := ((F.length + ctx.current : Nat) : Int), stack := s' }
              (by rw [← hpr]; exact hc.left.right) (by rw [gl.names]; exact hF) (by simp only [hpc]; exact hpr) hh
              (hv.congr fun i hi => hs' i (by omega)) (by simp only [gl.cur]; omega) (by simp only [hl']; exact hlen')
            unfold ExprRuns at hr
            cases he2 : eval ρ r with
            | none =>
              rw [he2] at hr
              obtain ⟨k2, hk2, hf⟩ := hr
              exact ⟨k + k2, by simp only [List.length_append]; omega, hg.fails hf⟩
            | some w =>
              rw [he2] at hr
              obtain ⟨k2, hk2, s2, hg2, hl2, hs2, hT2⟩ := hr
              rw [gl.cur] at hs2 hT2 hg2
              have hTl : s2[F.length + ctx.current]? = some v := by rw [hs2 _ (by omega)]; exact hT
              have hpo : P[st.pc + cl.length + cr.length]? = some op.instr := by
                have := hc.right.one
                rw [List.length_append, ← Nat.add_assoc, ← hpc] at this
                exact this
              cases hm : opMeaning op v w with
              | some x =>
                simp only [hm]
                refine ⟨k + k2 + 1, by simp only [List.length_append, List.length_singleton]; omega, s2.set (F.length + ctx.current) x, ?_,
                  by rw [List.length_set, hl2, hl'], ?_, ?_⟩
                · refine (hg.trans hg2).trans (goes_step hh hpo ?_)
                  rw [binop_ok (T := F.length + ctx.current) (l := v) (r := w) (v := x) (by simp only; omega) hTl hT2 hm]
                  simp only [List.length_append, List.length_singleton, Nat.add_assoc]
                · intro i hi
                  rw [List.getElem?_set_ne (by omega), hs2 i (by omega), hs' i hi]
                · rw [List.getElem?_set_self (List.getElem?_eq_some_iff.1 hTl).1]
              | none =>
                simp only [hm]
                refine ⟨k + k2 + 1, by simp only [List.length_append, List.length_singleton]; omega, (hg.trans hg2).fails (fails_step hh hpo ?_)⟩
                exact binop_fail (T := F.length + ctx.current) (l := v) (r := w) (by simp only; omega) hTl hT2 hm
      | throws => rw [h2] at h; cases h
      | ub => rw [h2] at h; cases h
      | diverges => rw [h2] at h; cases h
    | throws => rw [h1] at h; cases h
    | ub => rw [h1] at h; cases h
    | diverges => rw [h1] at h; cases h

/-- What running the code of statements does. -/
def StmtsRun (P : List Instr) (F : List String) (OS : List O) (ρ : String → Cell) (p : Stmts O) (len : Nat) (st : VMState) : Prop :=
  match exec p ρ with
  | some (ρ', os) => ∃ k ≤ len, ∃ s' out, Goes P st k { st with pc := st.pc + len, stack := s', removed := st.removed ++ out } ∧
      s'.length = st.stack.length ∧ VarsOk F ρ' s' ∧ out.map (fun i => OS[i]?) = os.map some
  | none => ∃ k ≤ len, Fails P st k

/-- Bookkeeping of code generation for statements. -/
structure StmtsGen (p : Stmts O) (ctx : GenContext O) (is : List Instr) (ctx' : GenContext O) (is' : List Instr) (code : List Instr) : Prop where
  app : is' = is ++ code
  names : ctx.names <+: ctx'.names
  nodup : ctx.names.Nodup → ctx'.names.Nodup
  orders : ctx.orders <+: ctx'.orders
  init : ctx'.initialNumVariables = ctx.initialNumVariables
  cur : ctx'.current = ctx.current
  mono : ctx.maxNeeded ≤ ctx'.maxNeeded
  runs : ∀ (P : List Instr) (F : List String) (OS : List O) (ρ : String → Cell) (st : VMState), CodeAt P is.length code → ctx'.names <+: F → F.Nodup →
    ctx'.orders <+: OS → st.pc = is.length → st.halted = false → VarsOk F ρ st.stack → st.sp = ((F.length + ctx.current : Nat) : Int) - 1 →
    F.length + ctx'.maxNeeded ≤ st.stack.length → StmtsRun P F OS ρ p code.length st

theorem addLocal_names (c : GenContext O) (x : String) : c.names <+: (c.addLocal x).names ∧ x ∈ (c.addLocal x).names ∧
    (c.names.Nodup → (c.addLocal x).names.Nodup) ∧ (c.addLocal x).orders = c.orders ∧ (c.addLocal x).current = c.current ∧
    (c.addLocal x).maxNeeded = c.maxNeeded ∧ (c.addLocal x).initialNumVariables = c.initialNumVariables := by
  unfold GenContext.addLocal
  by_cases h : x ∈ c.names
  · rw [if_pos h]; exact ⟨List.prefix_rfl, h, id, rfl, rfl, rfl, rfl⟩
  · rw [if_neg h]
    refine ⟨List.prefix_append _ _, by simp, fun hn => ?_, rfl, rfl, rfl, rfl⟩
    exact List.nodup_append.2 ⟨hn, by simp, by rintro a ha b hb rfl; rw [List.mem_singleton] at hb; exact h (hb ▸ ha)⟩

theorem VarsOk.assign {F : List String} {ρ : String → Cell} {s : List Cell} (h : VarsOk F ρ s) {x : String} (hx : x ∈ F) (v : Cell) :
    VarsOk F (Spec.assign ρ x v) (s.set (F.idxOf x) v) := by
  intro y hy
  unfold Spec.assign
  by_cases e : y = x
  · subst e
    rw [if_pos rfl, List.getElem?_set_self]
    exact (List.getElem?_eq_some_iff.1 (h y hy)).1
  · rw [if_neg e, List.getElem?_set_ne, h y hy]
    intro hc
    apply e
    have h1 := List.getElem_idxOf (List.idxOf_lt_length_iff.2 hx)
    have h2 := List.getElem_idxOf (List.idxOf_lt_length_iff.2 hy)
    rw [← h1, ← h2]
    congr 1
    exact hc.symm

theorem genStmts_spec (p : Stmts O) : ∀ (ctx : GenContext O) (is : List Instr) (r : GenContext O × List Instr), genStmts p ctx is = .ok r →
    ∃ code, StmtsGen p ctx is r.1 r.2 code := by
  induction p with
  | nil =>
    rintro ctx is r h
    cases h
    refine ⟨[], ⟨by simp, List.prefix_rfl, id, List.prefix_rfl, rfl, rfl, le_refl _, ?_⟩⟩
    intro P F OS ρ st hc hF hn hO hpc hh hv hsp hlen
    exact ⟨0, le_refl _, st.stack, [], by simpa using Goes.refl P st, rfl, hv, rfl⟩
  | defineList rest ih =>
    rintro ctx is r h
    obtain ⟨code, g⟩ := ih ctx is r h
    exact ⟨code, ⟨g.app, g.names, g.nodup, g.orders, g.init, g.cur, g.mono, g.runs⟩⟩
  | order o rest ih =>
    rintro ctx is r h
    obtain ⟨code, g⟩ := ih _ _ r h
    have horders : ctx.orders ++ [o] <+: r.1.orders := g.orders
    refine ⟨[.outputC ctx.orders.length] ++ code, ⟨by rw [g.app, List.append_assoc], g.names, g.nodup, (List.prefix_append _ _).trans horders,
      g.init, g.cur, g.mono, ?_⟩⟩
    intro P F OS ρ st hc hF hn hO hpc hh hv hsp hlen
    have hg1 : Goes P st 1 { st with pc := st.pc + 1, removed := st.removed ++ [ctx.orders.length] } :=
      goes_step hh (by rw [hpc]; exact hc.left.one) rfl
    have hr := g.runs P F OS ρ { st with pc := st.pc + 1, removed := st.removed ++ [ctx.orders.length] }
      (by rw [List.length_append]; exact hc.right) hF hn hO (by simp [hpc]) hh hv hsp hlen
    unfold StmtsRun at hr ⊢
    simp only [exec]
    cases he : exec rest ρ with
    | none =>
      rw [he] at hr
      obtain ⟨k, hk, hf⟩ := hr
      exact ⟨1 + k, by simp only [List.length_append, List.length_singleton]; omega, hg1.fails hf⟩
    | some q =>
      obtain ⟨ρ', os⟩ := q
      rw [he] at hr
      obtain ⟨k, hk, s', out, hg, hl, hv', ho⟩ := hr
      refine ⟨1 + k, by simp only [List.length_append, List.length_singleton]; omega, s', ctx.orders.length :: out, ?_, hl, hv', ?_⟩
      · have := hg1.trans hg
        simp only [List.append_assoc, List.singleton_append, Nat.add_assoc] at this
        simpa only [List.length_append, List.length_singleton, Nat.add_assoc] using this
      · rw [List.map_cons, List.map_cons, ho]
        congr 1
        obtain ⟨t, ht⟩ := horders.trans hO
        rw [← ht]; simp
  | define x e rest ih =>
    rintro ctx is r h
    unfold genStmts at h
    cases h1 : genExpr e ctx is with
    | ok a =>
      rw [h1] at h
      simp only [Outcome.bind] at h
      obtain ⟨ce, ge⟩ := genExpr_spec e ctx is a h1
      obtain ⟨code, g⟩ := ih _ _ r h
      obtain ⟨n1, n2, n3, n4, n5, n6, n7⟩ := addLocal_names a.1 x
      have gn : (a.1.addLocal x).names <+: r.1.names := g.names
      have gc : (a.1.addLocal x).free.current = ctx.current := by
        show (a.1.addLocal x).current - 1 = _
        rw [n5, ge.cur]; rfl
      have gm : (a.1.addLocal x).maxNeeded ≤ r.1.maxNeeded := g.mono
      refine ⟨ce ++ [.storeA ((a.1.addLocal x).names.idxOf x)] ++ code, ⟨by rw [g.app, ge.app]; simp, ?_, ?_, ?_, ?_, ?_, ?_, ?_⟩⟩
      · rw [← ge.names]; exact n1.trans gn
      · intro hn; exact g.nodup (n3 (by rw [ge.names]; exact hn))
      · have := g.orders; rw [← ge.orders, ← n4]; exact this
      · rw [g.init]; show (a.1.addLocal x).initialNumVariables = _; rw [n7, ge.init]
      · rw [g.cur, gc]
      · have := ge.mono; rw [n6] at gm; omega
      · intro P F OS ρ st hc hF hn hO hpc hh hv hsp hlen
        have hr := ge.runs P F ρ st hc.left.left (by rw [← ge.names]; exact (n1.trans gn).trans hF) hpc hh hv hsp (by rw [n6] at gm; omega)
        unfold ExprRuns at hr
        unfold StmtsRun
        simp only [exec]
        cases he : eval ρ e with
        | none =>
          rw [he] at hr
          obtain ⟨k, hk, hf⟩ := hr
          exact ⟨k, by simp only [List.length_append]; omega, hf⟩
        | some v =>
          rw [he] at hr
          obtain ⟨k, hk, s', hg, hl', hs', hT⟩ := hr
          have hxF : x ∈ F := (gn.trans hF).subset n2
          have hidx : F.idxOf x = (a.1.addLocal x).names.idxOf x := idxOf_prefix (gn.trans hF) n2
          have hlt : F.idxOf x < F.length := List.idxOf_lt_length_iff.2 hxF
          have hF2 : F.length ≤ s'.length := by rw [hl']; omega
          have hpc' : P[st.pc + ce.length]? = some (.storeA (F.idxOf x)) := by rw [hpc, hidx]; exact hc.left.right.one
          have hg2 : Goes P { st with pc := st.pc + ce.length, sp := ((F.length + ctx.current : Nat) : Int), stack := s' } 1
              { st with pc := st.pc + ce.length + 1, stack := s'.set (F.idxOf x) v } := by
            refine goes_step hh hpc' ?_
            simp only [executeInstruction]
            rw [stackAt_of (j := F.length + ctx.current) rfl hT]
            simp only [bind, Except.bind]
            rw [stackSet_of (j := F.idxOf x) v rfl (by omega)]
            simp only [pure, Except.pure]
            congr 2
            exact hsp.symm
          have hr2 := g.runs P F OS (assign ρ x v) { st with pc := st.pc + ce.length + 1, stack := s'.set (F.idxOf x) v }
            (by rw [ge.app]; simpa only [List.length_append, Nat.add_assoc] using hc.right) hF hn hO
            (by rw [ge.app]; simp only [hpc, List.length_append, List.length_singleton]) hh
            ((hv.congr fun i hi => hs' i (by omega)).assign hxF v) (by rw [gc]; exact hsp) (by simp only [List.length_set, hl']; exact hlen)
          unfold StmtsRun at hr2
          simp only
          cases hx : exec rest (assign ρ x v) with
          | none =>
            rw [hx] at hr2
            obtain ⟨k2, hk2, hf⟩ := hr2
            exact ⟨k + 1 + k2, by simp only [List.length_append, List.length_singleton]; omega, (hg.trans hg2).fails hf⟩
          | some q =>
            obtain ⟨ρ', os⟩ := q
            rw [hx] at hr2
            obtain ⟨k2, hk2, s2, out, hg3, hl2, hv2, ho⟩ := hr2
            refine ⟨k + 1 + k2, by simp only [List.length_append, List.length_singleton]; omega, s2, out, ?_, by simpa [hl'] using hl2, hv2, ho⟩
            have := (hg.trans hg2).trans hg3
            simpa only [List.length_append, List.length_singleton, Nat.add_assoc] using this
    | throws => rw [h1] at h; cases h
    | ub => rw [h1] at h; cases h
    | diverges => rw [h1] at h; cases h
  | ite cond body rest ihb ihr =>
    rintro ctx is r h
    unfold genStmts at h
    cases h1 : genExpr cond ctx is with
    | ok a =>
      rw [h1] at h
      simp only [Outcome.bind] at h
      cases h2 : genStmts body a.1.free (a.2 ++ [.jumpZero 0]) with
      | ok b =>
        rw [h2] at h
        simp only at h
        obtain ⟨ce, ge⟩ := genExpr_spec cond ctx is a h1
        obtain ⟨cb, gb⟩ := ihb _ _ b h2
        obtain ⟨cr, gr⟩ := ihr _ _ r h
        have hset : b.2.set a.2.length (.jumpZero b.2.length) = is ++ (ce ++ [.jumpZero b.2.length] ++ cb) := by
          have : ∀ j, b.2.set a.2.length j = is ++ (ce ++ [j] ++ cb) := by
            intro j
            rw [gb.app, List.set_append_left _ _ (by simp), List.set_append_right _ _ (by simp)]
            simp [ge.app]
          exact this _
        have hbl : b.2.length = is.length + ce.length + 1 + cb.length := by rw [gb.app, ge.app]; simp; omega
        have gbc : a.1.free.current = ctx.current := by show a.1.current - 1 = _; rw [ge.cur]; rfl
        have gbn : a.1.names <+: b.1.names := gb.names
        have gbo : a.1.orders <+: b.1.orders := gb.orders
        have gbm : a.1.maxNeeded ≤ b.1.maxNeeded := gb.mono
        refine ⟨ce ++ [.jumpZero b.2.length] ++ cb ++ cr, ⟨by rw [gr.app, hset]; simp, ?_, ?_, ?_, ?_, ?_, ?_, ?_⟩⟩
        · rw [← ge.names]; exact gbn.trans gr.names
        · intro hn; exact gr.nodup (gb.nodup (by show a.1.names.Nodup; rw [ge.names]; exact hn))
        · rw [← ge.orders]; exact gbo.trans gr.orders
        · rw [gr.init, gb.init]; exact ge.init
        · rw [gr.cur, gb.cur, gbc]
        · exact ge.mono.trans (gbm.trans gr.mono)
        · intro P F OS ρ st hc hF hn hO hpc hh hv hsp hlen
          have hgm := gr.mono
          have hr := ge.runs P F ρ st hc.left.left.left (by rw [← ge.names]; exact (gbn.trans gr.names).trans hF) hpc hh hv hsp (by omega)
          have hcr : CodeAt P (st.pc + (ce ++ [Instr.jumpZero b.2.length] ++ cb).length) cr := by rw [hpc]; exact hc.right
          have hrest := fun (ρ' : String → Cell) (s' : List Cell) (out : List Nat) (hv' : VarsOk F ρ' s') (hl : s'.length = st.stack.length) =>
            gr.runs P F OS ρ' { st with pc := b.2.length, stack := s', removed := st.removed ++ out }
              (by rw [hset, List.length_append, ← hpc]; exact hcr) hF hn hO
              (by rw [hset, hbl]; simp only [List.length_append, List.length_singleton]; omega) hh hv'
              (by rw [gb.cur, gbc]; exact hsp) (by simp only [hl]; exact hlen)
          have hbl' : b.2.length = st.pc + (ce ++ [Instr.jumpZero b.2.length] ++ cb).length := by
            simp only [List.length_append, List.length_singleton]; omega
          unfold ExprRuns at hr
          unfold StmtsRun
          simp only [exec]
          cases he : eval ρ cond with
          | none =>
            rw [he] at hr
            obtain ⟨k, hk, hf⟩ := hr
            exact ⟨k, by simp only [List.length_append]; omega, hf⟩
          | some v =>
            rw [he] at hr
            obtain ⟨k, hk, s', hg, hl', hs', hT⟩ := hr
            have hv' : VarsOk F ρ s' := hv.congr fun i hi => hs' i (by omega)
            have hpc' : P[st.pc + ce.length]? = some (.jumpZero b.2.length) := by rw [hpc]; exact hc.left.left.right.one
            have hsp' : ((F.length + ctx.current : Nat) : Int) - 1 = st.sp := hsp.symm
            cases v with
            | bool t =>
              have hg2 : Goes P { st with pc := st.pc + ce.length, sp := ((F.length + ctx.current : Nat) : Int), stack := s' } 1
                  { st with pc := if t then st.pc + ce.length + 1 else b.2.length, stack := s' } := by
                refine goes_step hh hpc' ?_
                simp only [executeInstruction]
                rw [stackAt_of (j := F.length + ctx.current) rfl hT]
                simp only [bind, Except.bind, getBool, pure, Except.pure, hsp']
              cases t with
              | false =>
                simp only [Bool.false_eq_true, if_false] at hg2
                have hrr := hrest ρ s' [] hv' hl'
                simp only [List.append_nil] at hrr
                unfold StmtsRun at hrr
                simp only
                cases hx : exec rest ρ with
                | none =>
                  rw [hx] at hrr
                  obtain ⟨k2, hk2, hf⟩ := hrr
                  exact ⟨k + 1 + k2, by simp only [List.length_append, List.length_singleton]; omega, (hg.trans hg2).fails hf⟩
                | some q =>
                  obtain ⟨ρ', os⟩ := q
                  rw [hx] at hrr
                  obtain ⟨k2, hk2, s2, out, hg3, hl2, hv2, ho⟩ := hrr
                  refine ⟨k + 1 + k2, by simp only [List.length_append, List.length_singleton]; omega, s2, out, ?_, by rw [hl2, hl'], hv2, ho⟩
                  have := (hg.trans hg2).trans hg3
                  simp only [hbl] at this
                  simp only [List.length_append, List.length_singleton]
                  rw [show st.pc + (ce.length + 1 + cb.length + cr.length) = is.length + ce.length + 1 + cb.length + cr.length by omega]
                  exact this
              | true =>
                simp only [if_true] at hg2
                have hrb := gb.runs P F OS ρ { st with pc := st.pc + ce.length + 1, stack := s' }
                  (by
                    rw [ge.app]
                    have := hc.left.right
                    simp only [List.length_append, List.length_singleton] at this ⊢
                    rw [show is.length + ce.length + 1 = is.length + (ce.length + 1) by omega]
                    exact this)
                  (gr.names.trans hF) hn (gr.orders.trans hO) (by rw [ge.app]; simp only [hpc, List.length_append, List.length_singleton]) hh hv'
                  (by rw [gbc]; exact hsp) (by simp only [hl']; omega)
                unfold StmtsRun at hrb
                simp only
                cases hb : exec body ρ with
                | none =>
                  rw [hb] at hrb
                  obtain ⟨k2, hk2, hf⟩ := hrb
                  exact ⟨k + 1 + k2, by simp only [List.length_append, List.length_singleton]; omega, (hg.trans hg2).fails hf⟩
                | some q =>
                  obtain ⟨ρ', os⟩ := q
                  rw [hb] at hrb
                  obtain ⟨k2, hk2, s2, out, hg3, hl2, hv2, ho⟩ := hrb
                  have hg4 := (hg.trans hg2).trans hg3
                  simp only at hg4
                  rw [show st.pc + ce.length + 1 + cb.length = b.2.length by omega] at hg4
                  have hrr := hrest ρ' s2 out hv2 (by rw [hl2, hl'])
                  unfold StmtsRun at hrr
                  simp only
                  cases hx : exec rest ρ' with
                  | none =>
                    rw [hx] at hrr
                    obtain ⟨k3, hk3, hf⟩ := hrr
                    exact ⟨k + 1 + k2 + k3, by simp only [List.length_append, List.length_singleton]; omega, hg4.fails hf⟩
                  | some q2 =>
                    obtain ⟨ρ2, os2⟩ := q2
                    rw [hx] at hrr
                    obtain ⟨k3, hk3, s3, out3, hg5, hl3, hv3, ho3⟩ := hrr
                    refine ⟨k + 1 + k2 + k3, by simp only [List.length_append, List.length_singleton]; omega, s3, out ++ out3, ?_,
                      by rw [hl3]; exact hl2.trans hl', hv3, by rw [List.map_append, List.map_append, ho, ho3]⟩
                    have := hg4.trans hg5
                    simp only [hbl, List.append_assoc] at this
                    simp only [List.length_append, List.length_singleton]
                    rw [show st.pc + (ce.length + 1 + cb.length + cr.length) = is.length + ce.length + 1 + cb.length + cr.length by omega]
                    exact this
            | double _ | size _ | opt _ _ =>
              refine ⟨k + 1, by simp only [List.length_append, List.length_singleton]; omega, hg.fails (fails_step hh hpc' ?_)⟩
              simp only [executeInstruction]
              rw [stackAt_of (j := F.length + ctx.current) rfl hT]
              rfl
      | throws => rw [h2] at h; cases h
      | ub => rw [h2] at h; cases h
      | diverges => rw [h2] at h; cases h
    | throws => rw [h1] at h; cases h
    | ub => rw [h1] at h; cases h
    | diverges => rw [h1] at h; cases h

end Verif
