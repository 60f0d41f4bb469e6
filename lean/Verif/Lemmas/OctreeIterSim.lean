import Verif.Lemmas.OctreeIterFlat
import Verif.Lemmas.Iterator
/-! The iterator of the octree works like the iterator over a list of cells. -/
namespace Verif.Octree

variable {P : Type}

/-- The leaves as cells; every leaf is followed by empty cells for the threads that get nothing from the container. -/
def flatCells (S : Nat) (E : List (Leaf P)) : List (List P) := E.flatMap fun e => e.2.2 :: List.replicate (S - 1) []

theorem flatCells_length {S : Nat} (hS : 0 < S) (E : List (Leaf P)) : (flatCells S E).length = E.length * S := by
  induction E with
  | nil => simp [flatCells]
  | cons e E ih =>
    unfold flatCells at ih ⊢
    rw [List.flatMap_cons, List.length_append, ih, List.length_cons, List.length_cons, List.length_replicate, Nat.add_mul]
    omega

theorem flatCells_flatten (S : Nat) (E : List (Leaf P)) : (flatCells S E).flatten = E.flatMap fun e => e.2.2 := by
  induction E with
  | nil => rfl
  | cons e E ih =>
    unfold flatCells at ih ⊢
    rw [List.flatMap_cons, List.flatten_append, ih, List.flatMap_cons, List.flatten_cons]
    simp

private theorem block_length {S : Nat} (hS : 0 < S) (ps : List P) : (ps :: List.replicate (S - 1) ([] : List P)).length = S := by
  simp; omega

theorem flatCells_getElem? {S : Nat} (hS : 0 < S) (E : List (Leaf P)) (k : Nat) :
    (flatCells S E)[k * S]? = E[k]?.map fun e => e.2.2 := by
  induction E generalizing k with
  | nil => simp [flatCells]
  | cons e E ih =>
    unfold flatCells at ih ⊢
    rw [List.flatMap_cons]
    cases k with
    | zero => simp
    | succ k =>
      have hl := block_length hS e.2.2
      rw [List.getElem?_append_right (by rw [hl, Nat.add_mul]; omega), hl, show (k + 1) * S - S = k * S by rw [Nat.add_mul]; omega, ih]
      simp

theorem flatCells_getD {S : Nat} (hS : 0 < S) {E : List (Leaf P)} {k : Nat} {e : Leaf P} (h : E[k]? = some e) :
    (flatCells S E).getD (k * S) [] = e.2.2 := by
  rw [List.getD_eq_getElem?_getD, flatCells_getElem? hS, h]
  rfl

theorem flatCells_other {S : Nat} (hS : 0 < S) (E : List (Leaf P)) (c : Nat) (hc : c % S ≠ 0) : (flatCells S E).getD c [] = [] := by
  induction E generalizing c with
  | nil => simp [flatCells]
  | cons e E ih =>
    unfold flatCells at ih ⊢
    rw [List.flatMap_cons, List.getD_eq_getElem?_getD]
    have hl := block_length hS e.2.2
    by_cases hlt : c < S
    · rw [List.getElem?_append_left (by rw [hl]; exact hlt)]
      cases c with
      | zero => exact absurd (Nat.zero_mod S) hc
      | succ c =>
        rw [List.getElem?_cons_succ, List.getElem?_replicate]
        split <;> rfl
    · rw [List.getElem?_append_right (by rw [hl]; omega), hl, ← List.getD_eq_getElem?_getD]
      apply ih
      rwa [← Nat.mod_eq_sub_mod (by omega)]

theorem flatCells_set {S : Nat} (hS : 0 < S) (E : List (Leaf P)) (k : Nat) (e : Leaf P) (hk : k < E.length) :
    flatCells S (E.set k e) = (flatCells S E).set (k * S) e.2.2 := by
  induction E generalizing k with
  | nil => simp at hk
  | cons a E ih =>
    have hl := block_length hS a.2.2
    unfold flatCells at ih ⊢
    cases k with
    | zero => simp
    | succ k =>
      rw [List.set_cons_succ, List.flatMap_cons, ih k (by simpa using hk), List.flatMap_cons,
        List.set_append_right _ _ (by rw [hl, Nat.add_mul]; omega), hl, show (k + 1) * S - S = k * S by rw [Nat.add_mul]; omega]

/-- The part of a leaf that does not change during an iteration. -/
def shapeOf (E : List (Leaf P)) : List (List Nat × Box) := E.map fun e => (e.1, e.2.1)

/-- The corresponding iterator over cells. `nO` is the number of leaves of the owned tree. -/
def flatCfg (cfg : OTIterCfg P) (shape : List (List Nat × Box)) (nO : Nat) : IterCfg P :=
  let start := (if cfg.wantsOwned then 0 else nO) * cfg.stride
  { ful := cfg.ful
    rel := fun c => decide (c = start) ||
      match cfg.region with
      | none => true
      | some r =>
        match shape[c / cfg.stride]? with
        | some e => boxesOverlap e.2.lo e.2.hi r.1 r.2
        | none => true
    startC := start
    endC := (if cfg.wantsHalo = true ∨ cfg.wantsOwned = false then shape.length else nO) * cfg.stride - 1
    thread := cfg.thread
    stride := cfg.stride }

/-! ### Searching in the cells -/

/-- As `firstIn`, with the number of the leaf. -/
def firstK (cfg : OTIterCfg P) : List (Leaf P) → Nat → Option (Nat × Nat)
  | [], _ => none
  | e :: r, k =>
    if cfg.leafRel e then
      match firstAt cfg.ful e.2.2 0 with
      | some j => some (k, j)
      | none => firstK cfg r (k + 1)
    else firstK cfg r (k + 1)

theorem firstAt_nil (ful : P → Bool) (i : Nat) : firstAt ful [] i = none := by
  rw [firstAt, dif_neg (by simp)]

theorem firstAt_some {ful : P → Bool} {ps : List P} {i j : Nat} (h : firstAt ful ps i = some j) :
    i ≤ j ∧ ∃ p, ps[j]? = some p ∧ ful p = true := by
  induction i using firstAt.induct ful ps with
  | case1 i hi hf =>
    rw [firstAt, dif_pos hi, if_pos hf] at h
    cases h
    exact ⟨le_refl _, _, List.getElem?_eq_getElem hi, hf⟩
  | case2 i hi hf ih =>
    rw [firstAt, dif_pos hi, if_neg hf] at h
    obtain ⟨h1, h2⟩ := ih h
    exact ⟨by omega, h2⟩
  | case3 i hi =>
    rw [firstAt, dif_neg hi] at h
    cases h

theorem firstK_spec {cfg : OTIterCfg P} {l : List (Leaf P)} {k0 k j : Nat} (h : firstK cfg l k0 = some (k, j)) :
    k0 ≤ k ∧ ∃ e, l[k - k0]? = some e ∧ firstIn cfg l = some (e.1, j) ∧ cfg.leafRel e = true ∧ ∃ p, e.2.2[j]? = some p ∧ cfg.ful p = true := by
  induction l generalizing k0 with
  | nil => cases h
  | cons e r ih =>
    rw [firstK] at h
    have hrest : firstK cfg r (k0 + 1) = some (k, j) → firstIn cfg (e :: r) = firstIn cfg r →
        k0 ≤ k ∧ ∃ e', (e :: r)[k - k0]? = some e' ∧ firstIn cfg (e :: r) = some (e'.1, j) ∧ cfg.leafRel e' = true ∧
          ∃ p, e'.2.2[j]? = some p ∧ cfg.ful p = true := by
      intro h1 h2
      obtain ⟨g1, e', g2, g3, g4⟩ := ih h1
      refine ⟨by omega, e', ?_, by rw [h2]; exact g3, g4⟩
      rw [show k - k0 = (k - (k0 + 1)) + 1 by omega, List.getElem?_cons_succ]
      exact g2
    by_cases hr : cfg.leafRel e = true
    · rw [if_pos hr] at h
      cases hf : firstAt cfg.ful e.2.2 0 with
      | some j' =>
        rw [hf] at h
        simp only [Option.some.injEq, Prod.mk.injEq] at h
        obtain ⟨rfl, rfl⟩ := h
        refine ⟨le_refl _, e, by simp, ?_, hr, (firstAt_some hf).2⟩
        rw [firstIn, if_pos hr, hf]
      | none =>
        rw [hf] at h
        exact hrest h (by rw [firstIn, if_pos hr, hf])
    · rw [if_neg hr] at h
      exact hrest h (by rw [firstIn, if_neg hr])

theorem firstK_none {cfg : OTIterCfg P} {l : List (Leaf P)} {k0 : Nat} (h : firstK cfg l k0 = none) : firstIn cfg l = none := by
  induction l generalizing k0 with
  | nil => rfl
  | cons e r ih =>
    rw [firstK] at h
    rw [firstIn]
    by_cases hr : cfg.leafRel e = true
    · rw [if_pos hr] at h ⊢
      cases hf : firstAt cfg.ful e.2.2 0 with
      | some j' => rw [hf] at h; cases h
      | none => rw [hf] at h; exact ih h
    · rw [if_neg hr] at h ⊢
      exact ih h

section
variable {cfg : OTIterCfg P} {E : List (Leaf P)} {nO : Nat}

/-- End of the iteration, as a number of leaves. -/
def flatEnd (cfg : OTIterCfg P) (E : List (Leaf P)) (nO : Nat) : Nat := if cfg.wantsHalo = true ∨ cfg.wantsOwned = false then E.length else nO

theorem flat_rel {k : Nat} {e : Leaf P} (hS : 0 < cfg.stride) (h : E[k]? = some e) (hr : (flatCfg cfg (shapeOf E) nO).rel (k * cfg.stride) = false) :
    cfg.leafRel e = false := by
  simp only [flatCfg, Bool.or_eq_false_iff] at hr
  have hr2 := hr.2
  unfold OTIterCfg.leafRel OTIterCfg.relevant
  cases hreg : cfg.region with
  | none => rw [hreg] at hr2; cases hr2
  | some r =>
    rw [hreg] at hr2
    rw [Nat.mul_div_cancel _ hS, shapeOf, List.getElem?_map, h] at hr2
    exact hr2

theorem rel_of_leafRel {k : Nat} {e : Leaf P} (hS : 0 < cfg.stride) (h : E[k]? = some e) (hr : cfg.leafRel e = true) :
    (flatCfg cfg (shapeOf E) nO).rel (k * cfg.stride) = true := by
  by_contra hc
  rw [Bool.not_eq_true] at hc
  rw [flat_rel hS h hc] at hr
  cases hr

theorem first_of_irrelevant {k : Nat} {e : Leaf P} (hS : 0 < cfg.stride) (h : E[k]? = some e) (hr : cfg.leafRel e = false)
    (hr2 : (flatCfg cfg (shapeOf E) nO).rel (k * cfg.stride) = true) (hk : k * cfg.stride ≠ (flatCfg cfg (shapeOf E) nO).startC) :
    firstAt cfg.ful e.2.2 0 = none := by
  unfold OTIterCfg.leafRel OTIterCfg.relevant at hr
  cases hreg : cfg.region with
  | none =>
    rw [hreg] at hr
    have hr' := of_decide_eq_false hr
    have hz : e.2.2.length = 0 := by
      have : collectAll (OTree.leaf e.2.2) = e.2.2 := rfl
      rw [this] at hr'
      omega
    rw [List.eq_nil_of_length_eq_zero hz]
    exact firstAt_nil _ _
  | some r =>
    rw [hreg] at hr
    simp only [flatCfg] at hr2 hk
    rw [hreg] at hr2
    simp only [Bool.or_eq_true, decide_eq_true_eq] at hr2
    rcases hr2 with hr2 | hr2
    · exact absurd hr2 hk
    · rw [Nat.mul_div_cancel _ hS, shapeOf, List.getElem?_map, h] at hr2
      simp only [Option.map_some] at hr2
      simp only at hr
      rw [hr2] at hr
      cases hr

/-- The search in the cells finds what the search in the leaves finds. -/
theorem flat_advance (hS : 0 < cfg.stride) (hE : flatEnd cfg E nO ≤ E.length) (n : Nat) :
    ∀ k i e, flatEnd cfg E nO - k ≤ n → k < flatEnd cfg E nO → E[k]? = some e →
      (if cfg.wantsOwned then 0 else nO) ≤ k →
      advanceLoop (flatCfg cfg (shapeOf E) nO) (flatCells cfg.stride E) (k * cfg.stride) i =
        (match (if (flatCfg cfg (shapeOf E) nO).rel (k * cfg.stride) = true then firstAt cfg.ful e.2.2 i else none) with
         | some j => some (k * cfg.stride, j)
         | none => (firstK cfg ((E.take (flatEnd cfg E nO)).drop (k + 1)) (k + 1)).map fun r => (r.1 * cfg.stride, r.2)) := by
  induction n with
  | zero => intro k i e h1 h2; omega
  | succ n ih =>
    intro k i e h1 h2 he hst
    have hcell : (flatCells cfg.stride E).getD (k * cfg.stride) [] = e.2.2 := flatCells_getD hS he
    have hend : (flatCfg cfg (shapeOf E) nO).endC = flatEnd cfg E nO * cfg.stride - 1 := by
      simp [flatCfg, flatEnd, shapeOf]
    have hstride : (flatCfg cfg (shapeOf E) nO).stride = cfg.stride := rfl
    have hpos : cfg.stride ≤ flatEnd cfg E nO * cfg.stride := Nat.le_mul_of_pos_left _ (by omega)
    have jump : ∀ i, ((flatCfg cfg (shapeOf E) nO).rel (k * cfg.stride) = false ∨ e.2.2.length ≤ i) →
        advanceLoop (flatCfg cfg (shapeOf E) nO) (flatCells cfg.stride E) (k * cfg.stride) i =
        (firstK cfg ((E.take (flatEnd cfg E nO)).drop (k + 1)) (k + 1)).map fun r => (r.1 * cfg.stride, r.2) := by
      intro i hj
      rw [advanceLoop, hcell, if_pos hj, hend, hstride]
      by_cases hlast : k + 1 = flatEnd cfg E nO
      · have e1 : k * cfg.stride + cfg.stride = flatEnd cfg E nO * cfg.stride := by rw [← hlast, Nat.add_mul, Nat.one_mul]
        rw [dif_pos (by omega), List.drop_eq_nil_of_le (by rw [List.length_take]; omega)]
        rfl
      · have e1 : k * cfg.stride + cfg.stride = (k + 1) * cfg.stride := by rw [Nat.add_mul, Nat.one_mul]
        have e2 : (k + 1) * cfg.stride + cfg.stride ≤ flatEnd cfg E nO * cfg.stride := by
          rw [← Nat.succ_mul]
          exact Nat.mul_le_mul_right _ (by omega)
        have hk1 : k + 1 < E.length := by omega
        have he' : E[k + 1]? = some E[k + 1] := List.getElem?_eq_getElem hk1
        rw [dif_neg (by omega), e1, ih (k + 1) 0 E[k + 1] (by omega) (by omega) he' (by omega)]
        have hd : (E.take (flatEnd cfg E nO)).drop (k + 1) = E[k + 1] :: (E.take (flatEnd cfg E nO)).drop (k + 1 + 1) := by
          have hl : k + 1 < (E.take (flatEnd cfg E nO)).length := by rw [List.length_take]; omega
          rw [List.drop_eq_getElem_cons hl, List.getElem_take]
        rw [hd, firstK]
        by_cases hr : cfg.leafRel E[k + 1] = true
        · rw [if_pos hr, if_pos (rel_of_leafRel hS he' hr)]
          cases firstAt cfg.ful E[k + 1].2.2 0 <;> rfl
        · rw [if_neg hr]
          rw [Bool.not_eq_true] at hr
          by_cases hr2 : (flatCfg cfg (shapeOf E) nO).rel ((k + 1) * cfg.stride) = true
          · rw [if_pos hr2, first_of_irrelevant hS he' hr hr2]
            simp only [flatCfg]
            exact fun hc => absurd (Nat.eq_of_mul_eq_mul_right hS hc) (by omega)
          · rw [if_neg hr2]
    by_cases hr : (flatCfg cfg (shapeOf E) nO).rel (k * cfg.stride) = true
    · rw [if_pos hr]
      induction i using firstAt.induct cfg.ful e.2.2 with
      | case1 i hi hf =>
        rw [advanceLoop, hcell, if_neg (by rw [hr]; simp; exact hi), List.getElem?_eq_getElem hi, firstAt, dif_pos hi, if_pos hf]
        simp only
        rw [if_pos (show (flatCfg cfg (shapeOf E) nO).ful _ = true from hf)]
      | case2 i hi hf ih2 =>
        rw [advanceLoop, hcell, if_neg (by rw [hr]; simp; exact hi), List.getElem?_eq_getElem hi, firstAt, dif_pos hi, if_neg hf]
        simp only
        rw [if_neg (show ¬ (flatCfg cfg (shapeOf E) nO).ful _ = true from hf)]
        exact ih2
      | case3 i hi =>
        rw [jump i (Or.inr (by omega)), firstAt, dif_neg hi]
    · rw [if_neg hr, jump i (Or.inl (by simpa using hr))]

end

/-! ### `getParticle` -/

section
variable {cfg : OTIterCfg P} {owned halo : OTree P}

/-- The number of leaves of the owned tree. -/
def ownedLeaves (cfg : OTIterCfg P) (owned : OTree P) : Nat := (under owned cfg.box [0]).length

/-- The iterator over cells for these trees. -/
def flatOf (cfg : OTIterCfg P) (owned halo : OTree P) : IterCfg P := flatCfg cfg (shapeOf (allLeaves cfg owned halo)) (ownedLeaves cfg owned)

theorem flatEnd_eq : flatEnd cfg (allLeaves cfg owned halo) (ownedLeaves cfg owned) = endLeaf cfg owned halo := rfl

/-- The iterator is at leaf `k`. -/
def AtLeaf (cfg : OTIterCfg P) (owned halo : OTree P) (ci fi : Nat) : Prop :=
  ∃ k e, startLeaf cfg owned ≤ k ∧ k < endLeaf cfg owned halo ∧ (allLeaves cfg owned halo)[k]? = some e ∧ ci = encodeIndex e.1 ∧ fi = k * cfg.stride ∧
    (flatOf cfg owned halo).rel (k * cfg.stride) = true

theorem get_at {I : Box → Prop} (h : RelOk cfg I) (hS : 0 < cfg.stride) (ht : cfg.thread = 0) (hs : Shallow cfg owned halo) {k i ci fi : Nat} {e : Leaf P}
    (h1 : startLeaf cfg owned ≤ k) (h2 : k < endLeaf cfg owned halo) (he : (allLeaves cfg owned halo)[k]? = some e)
    (hci : (if ci = 0 ∧ cfg.wantsOwned = false then 1 else ci) = encodeIndex e.1)
    (hfi : (if fi = 0 ∧ i = 0 then (flatOf cfg owned halo).startC + (flatOf cfg owned halo).thread else fi) = k * cfg.stride)
    (hrel : (flatOf cfg owned halo).rel (k * cfg.stride) = true) :
    (getTreeParticle cfg owned halo ci i = .ok none ∧
      getParticleImpl (flatOf cfg owned halo) (flatCells cfg.stride (allLeaves cfg owned halo)) fi i = none) ∨
    ∃ c f j p, getTreeParticle cfg owned halo ci i = .ok (some (c, j, p)) ∧
      getParticleImpl (flatOf cfg owned halo) (flatCells cfg.stride (allLeaves cfg owned halo)) fi i = some (f, j, p) ∧
      AtLeaf cfg owned halo c f := by
  obtain ⟨g1, g2⟩ := leaf_at he h1 h2
  have henc := encode_leaf hs (List.mem_of_getElem? he)
  have hcell := flatCells_getD hS he
  have hle := endLeaf_le (cfg := cfg) (owned := owned) (halo := halo)
  have hlen := flatCells_length hS (allLeaves cfg owned halo)
  have hklt : k * cfg.stride + cfg.stride ≤ endLeaf cfg owned halo * cfg.stride := by
    rw [← Nat.succ_mul]; exact Nat.mul_le_mul_right _ h2
  have hklt2 : endLeaf cfg owned halo * cfg.stride ≤ (allLeaves cfg owned halo).length * cfg.stride := Nat.mul_le_mul_right _ hle
  have hend : ∀ k', k' < endLeaf cfg owned halo → ¬ (flatOf cfg owned halo).endC < k' * cfg.stride := by
    intro k' hk'
    have e1 : (flatOf cfg owned halo).endC = endLeaf cfg owned halo * cfg.stride - 1 := by
      simp [flatOf, flatCfg, endLeaf, shapeOf, ownedLeaves]
    have : k' * cfg.stride + cfg.stride ≤ endLeaf cfg owned halo * cfg.stride := by
      rw [← Nat.succ_mul]; exact Nat.mul_le_mul_right _ hk'
    omega
  have hmod : ¬ (encodeIndex e.1 < 10 ∧ 1 < encodeIndex e.1) := by
    rintro ⟨a, b⟩
    rcases henc.2 with ⟨-, h0⟩ | ⟨-, h0⟩ <;> omega
  unfold getTreeParticle getParticleImpl
  rw [if_neg (by omega)]
  simp only [hci, hfi]
  rw [if_neg hmod, henc.1, if_neg (by rw [hlen]; omega)]
  simp only [hcell]
  have hcase : (∃ p, e.2.2[i]? = some p ∧ cfg.ful p = true) ∨ (e.2.2[i]? = none ∨ ∃ p, e.2.2[i]? = some p ∧ cfg.ful p = false) := by
    cases e.2.2[i]? with
    | none => exact Or.inr (Or.inl rfl)
    | some p =>
      cases hp : cfg.ful p with
      | true => exact Or.inl ⟨p, rfl, hp⟩
      | false => exact Or.inr (Or.inr ⟨p, rfl, hp⟩)
  rcases hcase with ⟨p, hp, hhere⟩ | hcase
  · right
    have hx : (flatOf cfg owned halo).ful p = true := hhere
    refine ⟨encodeIndex e.1, k * cfg.stride, i, p, ?_, ?_, ⟨k, e, h1, h2, he, rfl, rfl, hrel⟩⟩
    · simp only [hp, hhere, if_true, Outcome.bind, g1]
    · simp only [hp, hx, if_true]
      rw [if_neg (hend k h2), hcell, hp]
      rfl
  · rcases hcase with hp | ⟨p, hp, hhere⟩
    on_goal 1 => simp only [hp, Bool.false_eq_true, if_false]
    on_goal 2 =>
      have hx : (flatOf cfg owned halo).ful p = false := hhere
      simp only [hp, hhere, hx, Bool.false_eq_true, if_false]
    all_goals
      have hA := (advanceTree_spec h (enoughRounds owned halo) e.1 (i + 1) false g1).2 e.2.2 rfl rfl
        (by rw [g2]; exact rounds_enough he _)
      have hF := flat_advance hS (nO := ownedLeaves cfg owned) (by rw [flatEnd_eq]; exact hle) _ k (i + 1) e (le_refl _) h2 he h1
      have hrel' : (flatCfg cfg (shapeOf (allLeaves cfg owned halo)) (ownedLeaves cfg owned)).rel (k * cfg.stride) = true := hrel
      rw [if_pos hrel', flatEnd_eq] at hF
      have hF' : advanceIteratorIndices (flatOf cfg owned halo) (flatCells cfg.stride (allLeaves cfg owned halo)) (k * cfg.stride) i = _ := hF
      rw [hA, hF', g2]
      simp only [Outcome.bind]
      cases hf : firstAt cfg.ful e.2.2 (i + 1) with
      | some j =>
        obtain ⟨-, p, hp, hful⟩ := firstAt_some hf
        right
        refine ⟨encodeIndex e.1, k * cfg.stride, j, p, ?_, ?_, ⟨k, e, h1, h2, he, rfl, rfl, hrel⟩⟩
        · simp only [g1, hp]
        · simp only
          rw [if_neg (hend k h2), hcell, hp]
          rfl
      | none =>
        cases hk : firstK cfg (((allLeaves cfg owned halo).take (endLeaf cfg owned halo)).drop (k + 1)) (k + 1) with
        | none =>
          left
          rw [firstK_none hk]
          exact ⟨rfl, rfl⟩
        | some r =>
          right
          obtain ⟨k', j⟩ := r
          obtain ⟨q1, e', q2, q3, q4, p, q5, q6⟩ := firstK_spec hk
          rw [List.getElem?_drop, show k + 1 + (k' - (k + 1)) = k' by omega, List.getElem?_take] at q2
          have hk' : k' < endLeaf cfg owned halo := by
            by_contra hc
            rw [if_neg hc] at q2
            cases q2
          rw [if_pos hk'] at q2
          obtain ⟨r1, -⟩ := leaf_at q2 (by omega) hk'
          have hcell' := flatCells_getD hS q2
          refine ⟨encodeIndex e'.1, k' * cfg.stride, j, p, ?_, ?_, ⟨k', e', by omega, hk', q2, rfl, rfl, rel_of_leafRel hS q2 q4⟩⟩
          · rw [q3]
            simp only [r1, q5]
          · simp only [Option.map_some]
            rw [if_neg (hend k' hk'), hcell', q5]
            rfl

/-- Threads that get nothing from the container. -/
theorem get_idle (hS : 0 < cfg.stride) (ht : 0 < cfg.thread) (htS : cfg.thread < cfg.stride) (ci i : Nat) :
    getTreeParticle cfg owned halo ci i = .ok none ∧
    getParticleImpl (flatOf cfg owned halo) (flatCells cfg.stride (allLeaves cfg owned halo)) 0 0 = none := by
  constructor
  · unfold getTreeParticle
    rw [if_pos ht]
  · have hmod : ∀ n, (cfg.thread + n * cfg.stride) % cfg.stride ≠ 0 := by
      intro n
      rw [Nat.add_mul_mod_self_right, Nat.mod_eq_of_lt htS]
      omega
    have key : ∀ m c i n, (flatOf cfg owned halo).endC + 1 - c ≤ m → c = cfg.thread + n * cfg.stride →
        advanceLoop (flatOf cfg owned halo) (flatCells cfg.stride (allLeaves cfg owned halo)) c i = none := by
      intro m
      induction m with
      | zero =>
        intro c i n h1 h2
        rw [advanceLoop, flatCells_other hS _ _ (by rw [h2]; exact hmod n), if_pos (Or.inr (by simp)), dif_pos]
        left
        have : (flatOf cfg owned halo).stride = cfg.stride := rfl
        omega
      | succ m ih =>
        intro c i n h1 h2
        rw [advanceLoop, flatCells_other hS _ _ (by rw [h2]; exact hmod n), if_pos (Or.inr (by simp))]
        have e1 : (flatOf cfg owned halo).stride = cfg.stride := rfl
        split
        · rfl
        · exact ih _ _ (n + 1) (by omega) (by rw [h2, e1, Nat.add_mul, Nat.one_mul, Nat.add_assoc])
    unfold getParticleImpl
    simp only [and_self, if_true]
    have e1 : (flatOf cfg owned halo).startC + (flatOf cfg owned halo).thread = cfg.thread + startLeaf cfg owned * cfg.stride := by
      rw [Nat.add_comm]
      simp [flatOf, flatCfg, startLeaf, ownedLeaves]
    rw [e1, flatCells_other hS _ _ (hmod _)]
    split
    · rfl
    · simp only [List.getElem?_nil, Bool.false_eq_true, if_false]
      rw [advanceIteratorIndices, key _ _ _ _ (le_refl _) rfl]

/-! ### The simulation -/

/-- Both iterators are at corresponding places of corresponding storages. `z` is the particle index if the container is exhausted. -/
structure Sim (cfg : OTIterCfg P) (F : IterCfg P) (z : Nat) (s : OTIter P) (f : IterState P) : Prop where
  flat : flatOf cfg s.owned s.halo = F
  shallow : Shallow cfg s.owned s.halo
  cells : f.cells = flatCells cfg.stride (allLeaves cfg s.owned s.halo)
  vecs : f.vecs = s.vecs
  inVecs : f.inVecs = s.inVecs
  pi : f.pi = s.pi
  cur : f.cur = s.cur
  place : (s.inVecs = true ∧ f.ci = s.ci) ∨ (s.inVecs = false ∧ s.ci = 0 ∧ f.ci = 0 ∧ s.pi = z ∧ s.cur = none) ∨
    (s.inVecs = false ∧ cfg.thread = 0 ∧ AtLeaf cfg s.owned s.halo s.ci f.ci)

theorem findInVecs_congr (A B : IterCfg P) (h1 : A.ful = B.ful) (h2 : A.stride = B.stride) (vecs : List (List P)) (v i : Nat) :
    findInVecs A vecs v i = findInVecs B vecs v i := by
  induction v, i using findInVecs.induct A vecs with
  | case1 v i hx =>
    have hx' := hx
    rw [h2] at hx'
    rw [findInVecs, dif_pos hx, findInVecs, dif_pos hx']
  | case2 v i hx hn ih =>
    have hx' := hx
    rw [h2] at hx'
    rw [findInVecs, dif_neg hx]
    conv_rhs => rw [findInVecs, dif_neg hx']
    split
    · rw [← h2]; exact ih
    · rename_i h1; rw [hn] at h1; cases h1
  | case3 v i hx p hp hful =>
    have hx' := hx
    rw [h2] at hx'
    have hful' := hful
    rw [h1] at hful'
    rw [findInVecs, dif_neg hx]
    conv_rhs => rw [findInVecs, dif_neg hx']
    split
    · rename_i h1; rw [hp] at h1; cases h1
    · rename_i p' h1
      rw [hp] at h1; cases h1
      rw [if_pos hful, if_pos hful']
  | case4 v i hx p hp hful ih =>
    have hx' := hx
    rw [h2] at hx'
    have hful' := hful
    rw [h1] at hful'
    rw [findInVecs, dif_neg hx]
    conv_rhs => rw [findInVecs, dif_neg hx']
    split
    · rename_i h1; rw [hp] at h1; cases h1
    · rename_i p' h1
      rw [hp] at h1; cases h1
      rw [if_neg hful, if_neg hful']
      exact ih

theorem fetchVecs_sim {F : IterCfg P} {s : OTIter P} {f : IterState P} {z : Nat}
    (flat : flatOf cfg s.owned s.halo = F) (shallow : Shallow cfg s.owned s.halo)
    (cells : f.cells = flatCells cfg.stride (allLeaves cfg s.owned s.halo)) (vecs : f.vecs = s.vecs) (hv : s.inVecs = true)
    (inVecs : f.inVecs = s.inVecs) (pi : f.pi = s.pi) (ci : f.ci = s.ci) : Sim cfg F z (s.fetchVecs cfg) (fetchVecs F f) := by
  have hfind : ∀ v i, findInVecs ⟨cfg.ful, fun _ => true, 0, 0, cfg.thread, cfg.stride⟩ s.vecs v i = findInVecs F s.vecs v i := by
    intro v i
    subst flat
    exact findInVecs_congr ⟨cfg.ful, fun _ => true, 0, 0, cfg.thread, cfg.stride⟩ (flatOf cfg s.owned s.halo) rfl rfl _ _ _
  unfold OTIter.fetchVecs Verif.fetchVecs
  rw [hfind, vecs, ci, pi]
  cases findInVecs F s.vecs s.ci s.pi with
  | none => exact ⟨flat, shallow, cells, rfl, inVecs, rfl, rfl, Or.inl ⟨hv, rfl⟩⟩
  | some r => exact ⟨flat, shallow, cells, rfl, inVecs, rfl, rfl, Or.inl ⟨hv, rfl⟩⟩

/-- `fetch` keeps the correspondence. -/
theorem fetch_sim {I : Box → Prop} (h : RelOk cfg I) (hS : 0 < cfg.stride) (htS : cfg.thread < cfg.stride) {F : IterCfg P} {s : OTIter P}
    {f : IterState P} (hs : Sim cfg F 0 { s with cur := none } { f with cur := none }) :
    ∃ s', s.fetch cfg = .ok s' ∧ Sim cfg F 0 s' (fetch F f) := by
  obtain ⟨flat, shallow, cells, vecs, inVecs, pi, -, place⟩ := hs
  simp only at flat shallow cells vecs inVecs pi place
  cases hv : s.inVecs with
  | true =>
    unfold OTIter.fetch fetch
    rw [inVecs, hv, if_pos rfl, if_pos rfl]
    refine ⟨_, rfl, ?_⟩
    rcases place with ⟨-, hc⟩ | ⟨h1, -⟩ | ⟨h1, -⟩
    · exact fetchVecs_sim flat shallow cells vecs hv inVecs pi hc
    · rw [hv] at h1; cases h1
    · rw [hv] at h1; cases h1
  | false =>
    have none_case : getTreeParticle cfg s.owned s.halo s.ci s.pi = .ok none → getParticleImpl F f.cells f.ci f.pi = none →
        ∃ s', s.fetch cfg = .ok s' ∧ Sim cfg F 0 s' (fetch F f) := by
      intro h1 h2
      unfold OTIter.fetch fetch
      rw [inVecs, hv, if_neg Bool.false_ne_true, if_neg Bool.false_ne_true, h1, h2]
      simp only [Outcome.bind, vecs]
      by_cases he : s.vecs = []
      · rw [if_pos he, if_pos he]
        exact ⟨_, rfl, flat, shallow, cells, rfl, rfl, rfl, rfl, Or.inr (Or.inl ⟨rfl, rfl, rfl, rfl, rfl⟩)⟩
      · rw [if_neg he, if_neg he]
        have hth : F.thread = cfg.thread := by rw [← flat]; rfl
        exact ⟨_, rfl, fetchVecs_sim (s := { s with ci := cfg.thread, pi := 0, inVecs := true }) flat shallow cells rfl rfl rfl rfl hth⟩
    have some_case : ∀ {c g j p}, getTreeParticle cfg s.owned s.halo s.ci s.pi = .ok (some (c, j, p)) →
        getParticleImpl F f.cells f.ci f.pi = some (g, j, p) → cfg.thread = 0 → AtLeaf cfg s.owned s.halo c g →
        ∃ s', s.fetch cfg = .ok s' ∧ Sim cfg F 0 s' (fetch F f) := by
      intro c g j p h1 h2 h3 h4
      unfold OTIter.fetch fetch
      rw [inVecs, hv, if_neg Bool.false_ne_true, if_neg Bool.false_ne_true, h1, h2]
      exact ⟨_, rfl, flat, shallow, cells, vecs, rfl, rfl, rfl, Or.inr (Or.inr ⟨rfl, h3, h4⟩)⟩
    have atk : ∀ {k e}, cfg.thread = 0 → startLeaf cfg s.owned ≤ k → k < endLeaf cfg s.owned s.halo → (allLeaves cfg s.owned s.halo)[k]? = some e →
        (if s.ci = 0 ∧ cfg.wantsOwned = false then 1 else s.ci) = encodeIndex e.1 →
        (if f.ci = 0 ∧ f.pi = 0 then (flatOf cfg s.owned s.halo).startC + (flatOf cfg s.owned s.halo).thread else f.ci) = k * cfg.stride →
        (flatOf cfg s.owned s.halo).rel (k * cfg.stride) = true →
        ∃ s', s.fetch cfg = .ok s' ∧ Sim cfg F 0 s' (fetch F f) := by
      intro k e ht h1 h2 h3 h4 h5 h6
      rw [pi] at h5
      have := get_at h hS ht shallow h1 h2 h3 h4 h5 h6
      rw [flat, ← cells, ← pi] at this
      rcases this with ⟨a, b⟩ | ⟨c, g, j, p, a, b, d⟩
      · exact none_case (by rw [← pi]; exact a) b
      · exact some_case (by rw [← pi]; exact a) b ht d
    rcases place with ⟨h1, -⟩ | ⟨-, h1, h2, h3, -⟩ | ⟨-, ht, k, e, h1, h2, h3, h4, h5, h6⟩
    · rw [hv] at h1; cases h1
    · by_cases ht : 0 < cfg.thread
      · obtain ⟨a, b⟩ := get_idle hS ht htS (owned := s.owned) (halo := s.halo) s.ci s.pi
        rw [flat, ← cells] at b
        exact none_case a (by rw [h2, pi, h3]; exact b)
      · have ht : cfg.thread = 0 := by omega
        obtain ⟨e, he1, he2⟩ := start_leaf (cfg := cfg) (owned := s.owned) (halo := s.halo)
        have hst : (flatOf cfg s.owned s.halo).startC = startLeaf cfg s.owned * cfg.stride := by
          simp [flatOf, flatCfg, startLeaf, ownedLeaves]
        refine atk ht (le_refl _) startLeaf_lt he1 (by rw [h1]; exact he2) ?_ ?_
        · rw [if_pos ⟨h2, by rw [pi, h3]⟩, hst]
          have : (flatOf cfg s.owned s.halo).thread = cfg.thread := rfl
          omega
        · simp [flatOf, flatCfg, startLeaf, ownedLeaves]
    · refine atk ht h1 h2 h3 ?_ ?_ h6
      · rw [if_neg, h4]
        rintro ⟨a, b⟩
        rw [startLeaf, if_neg (by simp [b])] at h1
        have := (encode_leaf shallow (List.mem_of_getElem? h3)).2
        rcases this with ⟨c, d⟩ | ⟨c, d⟩
        · rw [allLeaves, List.getElem?_append_right h1] at h3
          obtain ⟨r1, q1, -⟩ := under_digits _ _ _ e c
          obtain ⟨r2, q2, -⟩ := under_digits _ _ _ e (List.mem_of_getElem? h3)
          rw [q1] at q2
          have := congrArg (fun l => l.getLast?) q2
          simp at this
        · rw [← h4, a] at d
          cases d
      · by_cases hz : f.ci = 0 ∧ f.pi = 0
        · rw [if_pos hz]
          have hk : k = 0 := by
            rw [hz.1] at h5
            rcases Nat.mul_eq_zero.1 h5.symm with h | h
            · exact h
            · omega
          have e1 : startLeaf cfg s.owned = 0 := by omega
          have hst : (flatOf cfg s.owned s.halo).startC = startLeaf cfg s.owned * cfg.stride := by
            simp [flatOf, flatCfg, startLeaf, ownedLeaves]
          have : (flatOf cfg s.owned s.halo).thread = cfg.thread := rfl
          rw [hst, e1, this, ht, hk]; simp
        · rw [if_neg hz, h5]

/-- `operator++` keeps the correspondence. -/
theorem next_sim {I : Box → Prop} (h : RelOk cfg I) (hS : 0 < cfg.stride) (htS : cfg.thread < cfg.stride) {F : IterCfg P} {s : OTIter P}
    {f : IterState P} {z : Nat} (hs : Sim cfg F z s f) (hz : s.inVecs = false → s.cur = none → (z + 1) % idxMod = 0) :
    ∃ s', s.next cfg = .ok s' ∧ Sim cfg F 0 s' (iterNext F f) := by
  obtain ⟨flat, shallow, cells, vecs, inVecs, pi, -, place⟩ := hs
  unfold OTIter.next iterNext
  refine fetch_sim h hS htS ⟨flat, shallow, cells, vecs, inVecs, ?_, rfl, ?_⟩
  · simp only [pi]
  · rcases place with h1 | ⟨h1, h2, h3, h4, h5⟩ | h1
    · exact Or.inl h1
    · refine Or.inr (Or.inl ⟨h1, h2, h3, ?_, rfl⟩)
      simp only [h4]
      exact hz h1 h5
    · exact Or.inr (Or.inr h1)

theorem shapeOf_set {E : List (Leaf P)} {k : Nat} {e : Leaf P} (h : E[k]? = some e) (ps : List P) :
    shapeOf (E.set k (e.1, e.2.1, ps)) = shapeOf E := by
  unfold shapeOf
  rw [List.map_set]
  apply List.ext_getElem?
  intro n
  rw [List.getElem?_set]
  by_cases hn : k = n
  · subst hn
    rw [if_pos rfl, List.getElem?_map, h]
    have : k < (E.map fun e => (e.1, e.2.1)).length := by
      rw [List.length_map]; exact (List.getElem?_eq_some_iff.1 h).1
    simp only [Option.map_some]
    split <;> simp_all
  · rw [if_neg hn]

/-- Changing the current leaf keeps the correspondence. -/
theorem modify_sim {F : IterCfg P} (hS : 0 < cfg.stride) {s : OTIter P} {f : IterState P} {z : Nat} (hs : Sim cfg F z s f) (hv : s.inVecs = false)
    (hcur : s.cur ≠ none) (g : List P → List P) : ∃ s', s.modifyLeaf s.ci g = .ok s' ∧ s'.pi = s.pi ∧ s'.inVecs = false ∧ s'.ci = s.ci ∧
      (∀ z' : Nat, ∀ c : Option P, ∀ i : Nat, Sim cfg F z' { s' with cur := c, pi := i } { f with cells := f.cells.set f.ci (g (f.cells.getD f.ci [])), cur := c, pi := i }) ∧
      s'.cur = s.cur ∧ ∃ ds, getLeafCellByIndex s'.owned s'.halo s.ci = some (ds, g (f.cells.getD f.ci [])) := by
  obtain ⟨flat, shallow, cells, vecs, inVecs, pi, cur, place⟩ := hs
  rcases place with ⟨h1, -⟩ | ⟨-, -, -, -, h1⟩ | ⟨-, ht, k, e, h1, h2, h3, h4, h5, h6⟩
  · rw [hv] at h1; cases h1
  · exact absurd h1 hcur
  · obtain ⟨s', g1, g2, g3, g4, g5, g6, g7, g8⟩ := modify_leaf s shallow h3 g
    rw [← h4] at g1
    have hcell : f.cells.getD f.ci [] = e.2.2 := by rw [cells, h5, flatCells_getD hS h3]
    have hsh : Shallow cfg s'.owned s'.halo := by
      intro e' he'
      rw [g7] at he'
      rcases List.mem_or_eq_of_mem_set he' with h | h
      · exact shallow e' h
      · rw [h]; exact shallow e (List.mem_of_getElem? h3)
    have hlt : k < (allLeaves cfg s.owned s.halo).length := (List.getElem?_eq_some_iff.1 h3).1
    have hget : (allLeaves cfg s'.owned s'.halo)[k]? = some (e.1, e.2.1, g e.2.2) := by
      rw [g7, List.getElem?_set_self hlt]
    have hflat : flatOf cfg s'.owned s'.halo = flatOf cfg s.owned s.halo := by
      unfold flatOf ownedLeaves
      rw [g7, shapeOf_set h3, g8]
    have hst : startLeaf cfg s'.owned = startLeaf cfg s.owned := by unfold startLeaf; rw [g8]
    have hen : endLeaf cfg s'.owned s'.halo = endLeaf cfg s.owned s.halo := by
      unfold endLeaf
      rw [g7, List.length_set, g8]
    refine ⟨s', g1, g5, by rw [g3, hv], g4, ?_, g6, e.1, ?_⟩
    · intro z' c i
      refine ⟨hflat.trans flat, hsh, ?_, vecs.trans g2.symm, inVecs.trans g3.symm, rfl, rfl,
        Or.inr (Or.inr ⟨by simp only; rw [g3, hv], ht, k, _, ?_, ?_, hget, ?_, h5, ?_⟩)⟩
      · simp only
        rw [g7, hcell, cells, h5, flatCells_set hS _ _ _ hlt]
      · simp only; rw [hst]; exact h1
      · simp only; rw [hen]; exact h2
      · simp only; rw [g4, h4]
      · simp only; rw [hflat]; exact h6
    · have := (encode_leaf hsh (List.mem_of_getElem? hget)).1
      rw [h4, hcell]
      exact this

theorem pi_sim {F : IterCfg P} {s : OTIter P} {f : IterState P} (hs : Sim cfg F 0 s f) :
    Sim cfg F (idxMod - 1) { s with pi := (s.pi + idxMod - 1) % idxMod } { f with pi := (f.pi + idxMod - 1) % idxMod } := by
  obtain ⟨flat, shallow, cells, vecs, inVecs, pi, cur, place⟩ := hs
  refine ⟨flat, shallow, cells, vecs, inVecs, by simp only [pi], cur, ?_⟩
  rcases place with h1 | ⟨h1, h2, h3, h4, h5⟩ | h1
  · exact Or.inl h1
  · refine Or.inr (Or.inl ⟨h1, h2, h3, ?_, h5⟩)
    simp only [h4]
    unfold idxMod
    norm_num
  · exact Or.inr (Or.inr h1)

/-- The loop body keeps the correspondence. -/
theorem body_sim {I : Box → Prop} (h : RelOk cfg I) (hS : 0 < cfg.stride) (htS : cfg.thread < cfg.stride) {F : IterCfg P} {s : OTIter P}
    {f : IterState P} (hs : Sim cfg F 0 s f) (hcur : s.cur ≠ none) (r : Option P) :
    ∃ s', s.afterBody cfg r = .ok s' ∧ Sim cfg F (idxMod - 1) s' (afterBody F f r) := by
  have hful : F.ful = cfg.ful := by rw [← hs.flat]; rfl
  cases r with
  | some p =>
    unfold OTIter.afterBody afterBody OTIter.write iterWrite
    simp only
    rw [hs.inVecs]
    cases hv : s.inVecs with
    | true =>
      rw [if_pos rfl, if_pos rfl]
      obtain ⟨flat, shallow, cells, vecs, inVecs, pi, cur, place⟩ := hs
      have hc : f.ci = s.ci := by
        rcases place with ⟨-, h1⟩ | ⟨h1, -⟩ | ⟨h1, -⟩
        · exact h1
        · rw [hv] at h1; cases h1
        · rw [hv] at h1; cases h1
      refine ⟨_, rfl, flat, shallow, cells, ?_, rfl, pi, rfl, Or.inl ⟨rfl, hc⟩⟩
      simp only [vecs, hc, pi]
    | false =>
      rw [if_neg Bool.false_ne_true, if_neg Bool.false_ne_true]
      obtain ⟨s', g1, g2, g3, g4, g5, -⟩ := modify_sim hS hs hv hcur fun ps => ps.set s.pi p
      refine ⟨{ s' with cur := some p }, by rw [g1]; rfl, ?_⟩
      have := g5 (idxMod - 1) (some p) s.pi
      have e1 : f.inVecs = false := by rw [hs.inVecs, hv]
      rw [e1] at this
      simp only [g2, hs.pi]
      exact this
  | none =>
    unfold OTIter.afterBody afterBody OTIter.deleteCurrent deleteCurrent
    simp only
    rw [hs.inVecs]
    have wrap : ∀ {o : Outcome (OTIter P)} {g : IterState P}, (∃ s', o = .ok s' ∧ Sim cfg F 0 s' g) →
        ∃ s', (o.bind fun s' => Outcome.ok { s' with pi := (s'.pi + idxMod - 1) % idxMod }) = .ok s' ∧
          Sim cfg F (idxMod - 1) s' { g with pi := (g.pi + idxMod - 1) % idxMod } := by
      rintro o g ⟨s', h1, h2⟩
      exact ⟨_, by rw [h1]; rfl, pi_sim h2⟩
    cases hv : s.inVecs with
    | true =>
      rw [if_pos rfl, if_pos rfl]
      obtain ⟨flat, shallow, cells, vecs, inVecs, pi, cur, place⟩ := hs
      have hc : f.ci = s.ci := by
        rcases place with ⟨-, h1⟩ | ⟨h1, -⟩ | ⟨h1, -⟩
        · exact h1
        · rw [hv] at h1; cases h1
        · rw [hv] at h1; cases h1
      have hsim : Sim cfg F 0 { s with vecs := s.vecs.set s.ci (swapDelete (s.vecs.getD s.ci []) s.pi) }
          { f with vecs := f.vecs.set f.ci (swapDelete (f.vecs.getD f.ci []) f.pi) } :=
        ⟨flat, shallow, cells, by simp only [vecs, hc, pi], inVecs, pi, cur, Or.inl ⟨hv, hc⟩⟩
      rw [hful]
      apply wrap
      have e1 : f.vecs.getD f.ci [] = s.vecs.getD s.ci [] := by rw [vecs, hc]
      have e2 : f.inVecs = true := by rw [inVecs, hv]
      simp only [e1, e2, hv, pi] at hsim ⊢
      split
      · exact next_sim h hS htS hsim (fun h1 => by cases h1)
      · exact ⟨_, rfl, hsim⟩
    | false =>
      rw [if_neg Bool.false_ne_true, if_neg Bool.false_ne_true]
      obtain ⟨s', g1, g2, g3, g4, g5, g6, ds, g7⟩ := modify_sim hS hs hv hcur fun ps => swapDelete ps s.pi
      apply wrap
      have hsim := g5 0 s.cur s.pi
      have e2 : ({ s' with cur := s.cur, pi := s.pi } : OTIter P) = s' := by
        cases s'
        simp only at g2 g6
        rw [g2, g6]
      rw [e2] at hsim
      have e3 : ({ f with cells := f.cells.set f.ci (swapDelete (f.cells.getD f.ci []) s.pi), cur := s.cur, pi := s.pi } : IterState P) =
          { f with cells := f.cells.set f.ci (swapDelete (f.cells.getD f.ci []) f.pi) } := by
        rw [← hs.pi, ← hs.cur]
      rw [e3] at hsim
      have e4 : f.inVecs = false := by rw [hs.inVecs, hv]
      rw [e4] at hsim
      rw [g1]
      simp only [Outcome.bind]
      rw [g7]
      simp only [hful, hs.pi] at hsim ⊢
      have hnext := next_sim h hS htS hsim (fun _ h1 => by rw [g6] at h1; exact absurd h1 hcur)
      split
      · exact hnext
      · split
        · exact hnext
        · exact ⟨_, rfl, hsim⟩

/-- The visits without the place. -/
def seenBy (vs : List (Visit P)) : List (Bool × P × Option P) := vs.map fun v => (v.inVecs, v.before, v.after)

/-- A loop over the octree visits what the loop over the cells visits. -/
theorem loop_sim {I : Box → Prop} (h : RelOk cfg I) (hS : 0 < cfg.stride) (htS : cfg.thread < cfg.stride) {F : IterCfg P}
    (body : List P → P → Option P) (rounds : Nat) : ∀ (seen : List P) (s : OTIter P) (f : IterState P) (vs : List (Visit P)) (t : IterState P),
    Sim cfg F 0 s f → iterLoop F body rounds seen f = some (vs, t) →
    ∃ vs' t', OTIter.loop cfg body rounds seen s = .ok (vs', t') ∧ seenBy vs' = seenBy vs ∧ Sim cfg F 0 t' t := by
  induction rounds with
  | zero => intro seen s f vs t _ hl; rw [iterLoop] at hl; cases hl
  | succ rounds ih =>
    intro seen s f vs t hs hl
    rw [iterLoop] at hl
    unfold OTIter.loop
    rw [hs.cur] at hl
    cases hc : s.cur with
    | none =>
      rw [hc] at hl
      simp only [Option.some.injEq, Prod.mk.injEq] at hl
      obtain ⟨rfl, rfl⟩ := hl
      exact ⟨[], s, rfl, rfl, hs⟩
    | some p =>
      rw [hc] at hl
      simp only at hl
      obtain ⟨s1, a1, a2⟩ := body_sim h hS htS hs (by rw [hc]; simp) (body seen p)
      obtain ⟨s2, b1, b2⟩ := next_sim h hS htS a2 (fun _ _ => by unfold idxMod; norm_num)
      cases hr : iterLoop F body rounds (seen ++ [p]) (iterNext F (afterBody F f (body seen p))) with
      | none => rw [hr] at hl; cases hl
      | some q =>
        rw [hr] at hl
        simp only [Option.map_some, Option.some.injEq, Prod.mk.injEq] at hl
        obtain ⟨rfl, rfl⟩ := hl
        obtain ⟨vs', t', c1, c2, c3⟩ := ih (seen ++ [p]) s2 _ q.1 q.2 b2 hr
        refine ⟨⟨s.inVecs, s.ci, p, body seen p⟩ :: vs', t', ?_, ?_, c3⟩
        · simp only [a1, b1, c1, Outcome.bind]
        · unfold seenBy at c2 ⊢
          rw [List.map_cons, List.map_cons, c2, hs.inVecs]

/-- The start of a loop. -/
theorem begin_sim {I : Box → Prop} (h : RelOk cfg I) (hS : 0 < cfg.stride) (htS : cfg.thread < cfg.stride) (hs : Shallow cfg owned halo)
    (vecs : List (List P)) : ∃ s, OTIter.begin cfg owned halo vecs = .ok s ∧
      Sim cfg (flatOf cfg owned halo) 0 s (iterBegin (flatOf cfg owned halo) (flatCells cfg.stride (allLeaves cfg owned halo)) vecs) := by
  unfold OTIter.begin iterBegin
  exact fetch_sim h hS htS ⟨rfl, hs, rfl, rfl, rfl, rfl, rfl, Or.inr (Or.inl ⟨rfl, rfl, rfl, rfl, rfl⟩)⟩

end
end Verif.Octree
