import Verif.Lemmas.IterVisits
import Verif.Lemmas.Basic
import Verif.Lemmas.Remainder
/-! Visits of complete loops, and the union over threads. -/
namespace Verif

variable {P : Type}

theorem tailT_eq {ful : P → Bool} {stride n : Nat} (hs : 0 < stride) (cells : List (List P)) (c : Nat) :
    tailT ful stride n cells c = (forUp c n stride).flatMap fun k => ((cells.getD k []).filter ful).map fun p => (k, p) := by
  induction c using tailT.induct stride n with
  | case1 c hc ih => rw [tailT, dif_pos hc, forUp, dif_pos hc, ih]; rfl
  | case2 c hc => rw [tailT, dif_neg hc, forUp, dif_neg hc]; rfl

/-- Everything the iterator of one thread has to visit. -/
def allVisits (cfg : IterCfg P) (cells vecs : List (List P)) : List (Bool × Nat × P) :=
  (tailT cfg.ful cfg.stride (cfg.endC + 1) cells (cfg.startC + cfg.thread)).map (fun e => (false, e)) ++
    (tailT cfg.ful cfg.stride vecs.length vecs cfg.thread).map (fun e => (true, e))

theorem iterBegin_eq (cfg : IterCfg P) (cells vecs : List (List P)) :
    iterBegin cfg cells vecs = fetch cfg ⟨cells, vecs, false, cfg.startC + cfg.thread, 0, none⟩ := by
  have : getParticleImpl cfg cells 0 0 = getParticleImpl cfg cells (cfg.startC + cfg.thread) 0 := by
    unfold getParticleImpl
    by_cases h : cfg.startC + cfg.thread = 0 <;> simp [h]
  unfold iterBegin fetch
  simp only [Bool.false_eq_true, if_false, this]

/-- What is assumed about storage. -/
structure GoodStorage (cfg : IterCfg P) (cells vecs : List (List P)) : Prop where
  stride : 0 < cfg.stride
  irr : NoneInIrrelevant cfg cells
  small : ∀ l ∈ cells, l.length < 2 ^ 64
  vsmall : ∀ l ∈ vecs, l.length < 2 ^ 64
  vnum : vecs.length < 2 ^ 64

theorem GoodStorage.good {cfg : IterCfg P} {cells vecs : List (List P)} (h : GoodStorage cfg cells vecs) (b : Bool) (i j : Nat) (x : Option P) :
    GoodStore cfg ⟨cells, vecs, b, i, j, x⟩ := by
  refine ⟨h.stride, h.irr, ?_, h.vnum⟩
  have key : ∀ (ls : List (List P)) k, (∀ l ∈ ls, l.length < 2 ^ 64) → (ls.getD k []).length < idxMod := by
    intro ls k hl
    rw [List.getD]
    cases hk : ls[k]? with
    | none => simp [idxMod]
    | some l => exact hl l (List.mem_of_getElem? hk)
  intro b' k
  unfold IterState.at
  cases b'
  · exact key cells k h.small
  · exact key vecs k h.vsmall

/-- One pass over everything, starting with the constructor. -/
theorem begin_pass (cfg : IterCfg P) (body : List P → P → Option P) (seen : List P) {cells vecs : List (List P)}
    (h : GoodStorage cfg cells vecs) :
    ∃ (vs : List (Visit P)) (t : IterState P),
      (vs.map fun v => (v.inVecs, v.idx, v.before)).Perm (allVisits cfg cells vecs) ∧ Follows body seen vs ∧
      t.cells.length = cells.length ∧ t.vecs.length = vecs.length ∧ GoodStore cfg t ∧
      (∀ k, (t.cells.getD k [] ++ beforesAt false k vs).Perm (cells.getD k [] ++ aftersAt false k vs)) ∧
      (∀ k, (t.vecs.getD k [] ++ beforesAt true k vs).Perm (vecs.getD k [] ++ aftersAt true k vs)) ∧
      (∀ k, (∀ v ∈ vs, ¬ (v.inVecs = false ∧ v.idx = k)) → t.cells.getD k [] = cells.getD k []) ∧
      (∀ k, (∀ v ∈ vs, ¬ (v.inVecs = true ∧ v.idx = k)) → t.vecs.getD k [] = vecs.getD k []) ∧
      ((t.cur = none ∧ ∀ m, iterLoop cfg body (m + vs.length + 1) seen (iterBegin cfg cells vecs) = some (vs, t)) ∨
       (vecs = [] ∧ (∃ v, vs.getLast? = some v ∧ v.after = none) ∧ t = iterBegin cfg t.cells [] ∧
        ∀ m, iterLoop cfg body (m + vs.length) seen (iterBegin cfg cells vecs) =
          (iterLoop cfg body m (seen ++ vs.map Visit.before) t).map fun r => (vs ++ r.1, r.2))) := by
  set s0 : IterState P := ⟨cells, vecs, false, cfg.startC + cfg.thread, 0, none⟩ with hs0
  have hg : GoodStore cfg s0 := h.good _ _ _ _
  have hall : pending cfg s0 = allVisits cfg cells vecs := by
    unfold pending allVisits
    simp only [hs0, Bool.false_eq_true, if_false]
    rw [restT_zero]
  have he : effCell cfg s0.ci s0.pi = s0.ci := by
    simp only [hs0, effCell]; split <;> omega
  obtain ⟨k1, k2, k3⟩ := fetch_spec hg (fun _ => by rw [he]) (fun _ => he)
  rw [iterBegin_eq, ← hs0]
  rcases k3 with ⟨k3, k4, -⟩ | ⟨p, k3, k4⟩
  · refine ⟨[], fetch cfg s0, ?_, trivial, by rw [k1], by rw [k2], ?_, ?_, ?_, ?_, ?_, Or.inl ⟨k4, ?_⟩⟩
    · rw [← hall, k3]; exact List.Perm.refl _
    · exact ⟨hg.stride, by rw [k1]; exact hg.irr, fun b k => by unfold IterState.at; rw [k1, k2]; exact hg.small b k,
        by rw [k2]; exact hg.vsmall⟩
    · intro k; rw [k1]; exact List.Perm.refl _
    · intro k; rw [k2]; exact List.Perm.refl _
    · intro k _; rw [k1]
    · intro k _; rw [k2]
    · intro m
      unfold iterLoop
      rw [k4]
  · have hgf : GoodStore cfg (fetch cfg s0) :=
      ⟨hg.stride, by rw [k1]; exact hg.irr, fun b k => by unfold IterState.at; rw [k1, k2]; exact hg.small b k,
        by rw [k2]; exact hg.vsmall⟩
    obtain ⟨vs, t, a1, a2, a3, a4, a5, a6, a7, a8⟩ := loop_pass cfg body _ _ seen p rfl hgf k3
    refine ⟨vs, t, ?_, a2, by rw [a3, k1], by rw [a4, k2], a5, ?_, ?_, ?_, ?_, ?_⟩
    · rw [← hall, ← k4]; exact a1
    · intro k; have := a6 false k; unfold IterState.at at this; rw [k1] at this; exact this
    · intro k; have := a6 true k; unfold IterState.at at this; rw [k2] at this; exact this
    · intro k hx; have := a7 false k hx; unfold IterState.at at this; rw [k1] at this; exact this
    · intro k hx; have := a7 true k hx; unfold IterState.at at this; rw [k2] at this; exact this
    · rcases a8 with a8 | ⟨b1, b2, b3, b4, b5⟩
      · exact Or.inl a8
      · rw [k2] at b1
        exact Or.inr ⟨b1, b3, b4, b5⟩

/-- The indices of the threads together are all indices of the range, each once. -/
theorem forUp_threads (c n T : Nat) (hT : 0 < T) :
    ((List.range T).flatMap fun t => forUp (c + t) n T).Perm (forUp c n 1) := by
  apply (List.perm_ext_iff_of_nodup ?_ (nodup_forUp _ _ _)).2
  · intro i
    simp only [List.mem_flatMap, List.mem_range, mem_forUp hT, mem_forUp Nat.one_pos, Nat.mod_one, and_true]
    constructor
    · rintro ⟨t, h1, h2, h3, h4⟩; omega
    · rintro ⟨h1, h2⟩
      refine ⟨(i - c) % T, Nat.mod_lt _ hT, ?_, h2, ?_⟩
      · have := Nat.mod_le (i - c) T; omega
      · have : i - (c + (i - c) % T) = T * ((i - c) / T) := by
          have := Nat.div_add_mod (i - c) T; omega
        rw [this]; simp
  · rw [List.nodup_flatMap]
    refine ⟨fun t _ => nodup_forUp _ _ _, ?_⟩
    rw [List.pairwise_iff_getElem]
    intro i j hi hj hij
    simp only [List.getElem_range, List.length_range, Function.onFun] at *
    intro x hx hy
    rw [mem_forUp hT] at hx hy
    obtain ⟨a1, a2, a3⟩ := hx
    obtain ⟨b1, b2, b3⟩ := hy
    have hi : i < T := by simpa using hi
    have hj : j < T := by simpa using hj
    have e1 : x = c + i + T * ((x - (c + i)) / T) := by have := Nat.div_add_mod (x - (c + i)) T; omega
    have e2 : x = c + j + T * ((x - (c + j)) / T) := by have := Nat.div_add_mod (x - (c + j)) T; omega
    have m1 : (x - c) % T = i := by
      rw [show x - c = i + T * ((x - (c + i)) / T) by omega, Nat.add_mul_mod_self_left, Nat.mod_eq_of_lt hi]
    have m2 : (x - c) % T = j := by
      rw [show x - c = j + T * ((x - (c + j)) / T) by omega, Nat.add_mul_mod_self_left, Nat.mod_eq_of_lt hj]
    omega

theorem flatMap_forUp_full {f : Nat → List P} {c e n : Nat} (he : e + 1 ≤ n) (h : ∀ k, k < n → (k < c ∨ e < k) → f k = []) :
    ((forUp c (e + 1) 1).flatMap f).Perm ((List.range n).flatMap f) := by
  have h1 : (List.range n).flatMap f = ((List.range n).filter (fun k => decide (c ≤ k ∧ k ≤ e))).flatMap f := by
    have : ∀ l : List Nat, (∀ k ∈ l, k < n) → l.flatMap f = (l.filter (fun k => decide (c ≤ k ∧ k ≤ e))).flatMap f := by
      intro l
      induction l with
      | nil => intro _; rfl
      | cons a l ih =>
        intro hl
        rw [List.flatMap_cons, ih (fun k hk => hl k (List.mem_cons_of_mem _ hk)), List.filter_cons]
        by_cases ha : c ≤ a ∧ a ≤ e
        · simp [ha]
        · simp only [ha, decide_false]
          rw [h a (hl a (by simp)) (by omega)]; rfl
    exact this _ (fun k hk => List.mem_range.1 hk)
  rw [h1]
  apply List.Perm.flatMap_right
  apply (List.perm_ext_iff_of_nodup (nodup_forUp _ _ _) (List.nodup_range.filter _)).2
  intro k
  simp only [mem_forUp Nat.one_pos, Nat.mod_one, and_true, List.mem_filter, List.mem_range, decide_eq_true_eq]
  omega

/-- All threads together have to visit all matching particles, each once. -/
theorem allVisits_threads (cfg : Nat → IterCfg P) (T : Nat) (hT : 0 < T) (ful : P → Bool) (c e : Nat)
    (h1 : ∀ t, (cfg t).ful = ful) (h2 : ∀ t, (cfg t).stride = T) (h3 : ∀ t, (cfg t).startC = c) (h4 : ∀ t, (cfg t).endC = e)
    (h5 : ∀ t, (cfg t).thread = t) (cells vecs : List (List P)) (he : e < cells.length)
    (hout : ∀ k, k < cells.length → (k < c ∨ e < k) → ∀ p ∈ cells.getD k [], ful p = false) :
    (((List.range T).flatMap fun t => allVisits (cfg t) cells vecs).map fun v => v.2.2).Perm
      ((cells.flatten ++ vecs.flatten).filter ful) := by
  have step : ∀ t, (allVisits (cfg t) cells vecs).map (fun v => v.2.2) =
      ((forUp (c + t) (e + 1) T).flatMap fun k => (cells.getD k []).filter ful) ++
      ((forUp (0 + t) vecs.length T).flatMap fun k => (vecs.getD k []).filter ful) := by
    intro t
    unfold allVisits
    rw [h1, h2, h3, h4, h5, tailT_eq hT, tailT_eq hT]
    simp [List.map_flatMap, Function.comp_def]
  rw [List.map_flatMap]
  simp only [step]
  have split : ∀ (l : List Nat) (f g : Nat → List P), (l.flatMap fun t => f t ++ g t).Perm (l.flatMap f ++ l.flatMap g) := by
    intro l f g
    exact (List.flatMap_append_perm l f g).symm
  refine (split _ _ _).trans ?_
  rw [List.filter_append]
  apply List.Perm.append
  · rw [← List.flatMap_assoc]
    refine ((forUp_threads c (e + 1) T hT).flatMap_right _).trans ?_
    refine (flatMap_forUp_full (n := cells.length) (by omega) ?_).trans ?_
    · intro k hk hkr
      rw [List.filter_eq_nil_iff]
      intro p hp; rw [hout k hk hkr p hp]; simp
    · have := range_getD_flatMap cells (fun p => if ful p then [p] else [])
      have e1 : ∀ l : List P, l.flatMap (fun p => if ful p then [p] else []) = l.filter ful := by
        intro l; induction l with
        | nil => rfl
        | cons a l ih => rw [List.flatMap_cons, ih, List.filter_cons]; split <;> simp_all
      simp only [e1] at this
      rw [this]
  · rw [← List.flatMap_assoc]
    refine ((forUp_threads 0 vecs.length T hT).flatMap_right _).trans ?_
    have := range_getD_flatMap vecs (fun p => if ful p then [p] else [])
    have e1 : ∀ l : List P, l.flatMap (fun p => if ful p then [p] else []) = l.filter ful := by
      intro l; induction l with
      | nil => rfl
      | cons a l ih => rw [List.flatMap_cons, ih, List.filter_cons]; split <;> simp_all
    simp only [e1] at this
    rw [← this]
    apply List.Perm.flatMap_right
    apply (List.perm_ext_iff_of_nodup (nodup_forUp _ _ _) List.nodup_range).2
    intro k
    simp [mem_forUp Nat.one_pos, Nat.mod_one]

end Verif
