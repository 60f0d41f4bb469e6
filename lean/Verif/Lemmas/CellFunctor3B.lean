import Verif.Lemmas.TripleLoops
import Verif.Lemmas.CellFunctor
/-! Functor calls of `CellFunctor3B`. -/
namespace Verif
open Spec

section
variable {P : Type}

theorem perm3_x (y z a b c : P) : [a, y, z].Perm [a, b, c] ↔ (y = b ∧ z = c) ∨ (y = c ∧ z = b) :=
  (List.perm_cons _).trans (perm_pair_iff _ _ _ _)

theorem perm3_y (x z a b c : P) : [x, a, z].Perm [a, b, c] ↔ (x = b ∧ z = c) ∨ (x = c ∧ z = b) := by
  rw [← perm3_x x z a b c]
  exact ⟨fun h => (List.Perm.swap _ _ _).trans h, fun h => (List.Perm.swap _ _ _).trans h⟩

theorem perm3_z (x y a b c : P) : [x, y, a].Perm [a, b, c] ↔ (x = b ∧ y = c) ∨ (x = c ∧ y = b) := by
  rw [← perm3_x x y a b c]
  have h : [x, y, a].Perm [a, x, y] := List.perm_append_comm (l₁ := [x, y]) (l₂ := [a])
  exact ⟨fun k => h.symm.trans k, fun k => h.trans k⟩

theorem perm3_none {x y z a b c : P} (hx : x ≠ a) (hy : y ≠ a) (hz : z ≠ a) : ¬ [x, y, z].Perm [a, b, c] := by
  intro h
  have : a ∈ [x, y, z] := h.symm.subset (by simp)
  simp only [List.mem_cons, List.not_mem_nil, or_false] at this
  rcases this with e | e | e
  · exact hx e.symm
  · exact hy e.symm
  · exact hz e.symm
end

section
variable {P : Type} [DecidableEq P]

theorem single3_unordered {isHalo : P → Bool} (l : List (P × P × P)) (a b c : P) :
    timesTriple (l.flatMap fun t => interactTriple isHalo true t.1 t.2.1 t.2.2) a b c = l.countP (isTriple id a b c) := by
  unfold timesTriple
  apply countP_flatMap_indicator
  intro t _
  simp [interactTriple, isTriple, List.countP_cons]

theorem single3_first {isHalo : P → Bool} {l : List (P × P × P)} {a b c : P}
    (hne : ∀ t ∈ l, t.1 ≠ t.2.1 ∧ t.1 ≠ t.2.2 ∧ t.2.1 ≠ t.2.2) :
    timesTripleFirst (l.flatMap fun t => interactTriple isHalo false t.1 t.2.1 t.2.2) a b c =
      if isHalo a then 0 else l.countP (isTriple id a b c) := by
  unfold timesTripleFirst
  by_cases hh : isHalo a = true
  · rw [if_pos hh, List.countP_eq_zero]
    intro s hs hcc
    simp only [List.mem_flatMap] at hs
    obtain ⟨t, _, hs⟩ := hs
    simp only [decide_eq_true_eq] at hcc
    simp only [interactTriple, Bool.false_eq_true, if_false, List.mem_append] at hs
    rcases hs with (hs | hs) | hs <;> split at hs <;> simp at hs <;> subst hs <;> simp_all
  · rw [if_neg hh]
    apply countP_flatMap_indicator
    rintro ⟨x, y, z⟩ ht
    obtain ⟨n1, n2, n3⟩ := hne _ ht
    simp only at n1 n2 n3
    have hh' : isHalo a = false := by simpa using hh
    by_cases h1 : x = a
    · subst h1
      cases hy : isHalo y <;> cases hz : isHalo z <;>
        simp [interactTriple, isTriple, perm_pair_iff, hh', hy, hz, n1.symm, n2.symm, List.countP_cons]
    · by_cases h2 : y = a
      · subst h2
        cases hx : isHalo x <;> cases hz : isHalo z <;>
          simp [interactTriple, isTriple, perm3_y, hh', hx, hz, n1, n3.symm, List.countP_cons]
      · by_cases h3 : z = a
        · subst h3
          cases hx : isHalo x <;> cases hy : isHalo y <;>
            simp [interactTriple, isTriple, perm3_z, hh', hx, hy, n2, n3, List.countP_cons]
        · cases hx : isHalo x <;> cases hy : isHalo y <;> cases hz : isHalo z <;>
            simp [interactTriple, isTriple, perm3_none h1 h2 h3, hx, hy, hz, h1, h2, h3, List.countP_cons]

theorem pair3_unordered (bidi : Bool) (l : List ((P × P × P) × Bool)) (a b c : P) :
    timesTriple (l.flatMap fun t => interactPairTriple true bidi t.1.1 t.1.2.1 t.1.2.2 t.2) a b c =
      l.countP (fun t => isTriple id a b c t.1) := by
  unfold timesTriple
  apply countP_flatMap_indicator
  intro t _
  simp [interactPairTriple, isTriple, List.countP_cons]

/-- First partner from the first cell. -/
theorem pair3_first_one {bidi : Bool} {l : List ((P × P × P) × Bool)} {a b c : P}
    (hne : ∀ t ∈ l, t.1.1 ≠ t.1.2.1 ∧ t.1.1 ≠ t.1.2.2 ∧ t.1.2.1 ≠ t.1.2.2)
    (hy : ∀ t ∈ l, t.1.2.1 = a → t.2 = true) (hz : ∀ t ∈ l, t.1.2.2 ≠ a) :
    timesTripleFirst (l.flatMap fun t => interactPairTriple false bidi t.1.1 t.1.2.1 t.1.2.2 t.2) a b c =
      l.countP (fun t => isTriple id a b c t.1) := by
  unfold timesTripleFirst
  apply countP_flatMap_indicator
  rintro ⟨⟨x, y, z⟩, tag⟩ ht
  obtain ⟨n1, n2, n3⟩ := hne _ ht
  have hy' := hy _ ht
  have hz' := hz _ ht
  simp only at n1 n2 n3 hy' hz'
  by_cases h1 : x = a
  · subst h1
    cases tag <;> cases bidi <;>
      simp [interactPairTriple, isTriple, perm_pair_iff, n1.symm, n2.symm, List.countP_cons]
  · by_cases h2 : y = a
    · have := hy' h2
      subst h2 this
      cases bidi <;>
        simp [interactPairTriple, isTriple, perm3_y, n1, n3.symm, List.countP_cons]
    · cases tag <;> cases bidi <;>
        simp [interactPairTriple, isTriple, perm3_none h1 h2 hz', h1, h2, hz', List.countP_cons]

/-- First partner from the second cell. -/
theorem pair3_first_two {bidi : Bool} {l : List ((P × P × P) × Bool)} {a b c : P}
    (hne : ∀ t ∈ l, t.1.1 ≠ t.1.2.1 ∧ t.1.1 ≠ t.1.2.2 ∧ t.1.2.1 ≠ t.1.2.2)
    (hx : ∀ t ∈ l, t.1.1 ≠ a) (hy : ∀ t ∈ l, t.1.2.1 = a → t.2 = false) :
    timesTripleFirst (l.flatMap fun t => interactPairTriple false bidi t.1.1 t.1.2.1 t.1.2.2 t.2) a b c =
      if bidi then l.countP (fun t => isTriple id a b c t.1) else 0 := by
  unfold timesTripleFirst
  cases bidi
  · simp only [Bool.false_eq_true, if_false]
    rw [List.countP_eq_zero]
    intro s hs hcc
    simp only [List.mem_flatMap] at hs
    obtain ⟨t, ht, hs⟩ := hs
    simp only [decide_eq_true_eq] at hcc
    have hx' := hx t ht
    have hy' := hy t ht
    cases htag : t.2
    · simp [interactPairTriple, htag] at hs
      subst hs
      exact hx' hcc.1
    · simp [interactPairTriple, htag] at hs
      rcases hs with rfl | rfl
      · exact hx' hcc.1
      · rw [hy' hcc.1] at htag; cases htag
  · simp only [if_true]
    apply countP_flatMap_indicator
    rintro ⟨⟨x, y, z⟩, tag⟩ ht
    obtain ⟨n1, n2, n3⟩ := hne _ ht
    have hx' := hx _ ht
    simp only at n1 n2 n3 hx'
    by_cases h2 : y = a
    · subst h2
      simp [interactPairTriple, isTriple, perm3_y, n1, n3.symm, List.countP_cons]
    · by_cases h3 : z = a
      · subst h3
        simp [interactPairTriple, isTriple, perm3_z, n2, n3, List.countP_cons]
      · simp [interactPairTriple, isTriple, perm3_none hx' h2 h3, hx', h2, h3, List.countP_cons]

theorem cross3_unordered (bidi : Bool) (l : List (P × P × P)) (a b c : P) :
    timesTriple (l.flatMap fun t => interactCrossTriple true bidi t.1 t.2.1 t.2.2) a b c = l.countP (isTriple id a b c) := by
  unfold timesTriple
  apply countP_flatMap_indicator
  intro t _
  simp [interactCrossTriple, isTriple, List.countP_cons]

theorem cross3_first_one {bidi : Bool} {l : List (P × P × P)} {a b c : P}
    (hy : ∀ t ∈ l, t.2.1 ≠ a) (hz : ∀ t ∈ l, t.2.2 ≠ a) :
    timesTripleFirst (l.flatMap fun t => interactCrossTriple false bidi t.1 t.2.1 t.2.2) a b c =
      l.countP (isTriple id a b c) := by
  unfold timesTripleFirst
  apply countP_flatMap_indicator
  rintro ⟨x, y, z⟩ ht
  have hy' := hy _ ht
  have hz' := hz _ ht
  simp only at hy' hz'
  by_cases h1 : x = a
  · subst h1
    cases bidi <;> simp [interactCrossTriple, isTriple, perm_pair_iff, hy', hz', List.countP_cons]
  · cases bidi <;> simp [interactCrossTriple, isTriple, perm3_none h1 hy' hz', h1, hy', hz', List.countP_cons]

theorem cross3_first_other {bidi : Bool} {l : List (P × P × P)} {a b c : P}
    (hne : ∀ t ∈ l, t.2.1 ≠ t.2.2) (hx : ∀ t ∈ l, t.1 ≠ a) :
    timesTripleFirst (l.flatMap fun t => interactCrossTriple false bidi t.1 t.2.1 t.2.2) a b c =
      if bidi then l.countP (isTriple id a b c) else 0 := by
  unfold timesTripleFirst
  cases bidi
  · simp only [Bool.false_eq_true, if_false]
    rw [List.countP_eq_zero]
    intro s hs hcc
    simp only [List.mem_flatMap] at hs
    obtain ⟨t, ht, hs⟩ := hs
    simp only [decide_eq_true_eq] at hcc
    simp [interactCrossTriple] at hs
    subst hs
    exact hx t ht hcc.1
  · simp only [if_true]
    apply countP_flatMap_indicator
    rintro ⟨x, y, z⟩ ht
    have hx' := hx _ ht
    have hn := hne _ ht
    simp only at hx' hn
    by_cases h2 : y = a
    · subst h2
      simp [interactCrossTriple, isTriple, perm3_y, hx', hn.symm, List.countP_cons]
    · by_cases h3 : z = a
      · subst h3
        simp [interactCrossTriple, isTriple, perm3_z, hx', hn, List.countP_cons]
      · simp [interactCrossTriple, isTriple, perm3_none hx' h2 h3, hx', h2, h3, List.countP_cons]

/-! ### The triplets over which the code loops -/

/-- One cell. -/
def cellTriples (threshold : Nat) (cutoff : Rat) (cell : List P) (view : List (Rat × P)) : List (P × P × P) :=
  if cell.length > threshold then
    (tripleLoop (farProj ⟨1, 1, 1⟩ cutoff) (farProj3 ⟨1, 1, 1⟩ cutoff) view).map fun t => (t.1.2, t.2.1.2, t.2.2.2)
  else tripleLoop (fun _ _ => false) (fun _ _ _ => false) cell

omit [DecidableEq P] in
theorem processCell3AoS_eq (isHalo : P → Bool) (newton3 : Bool) (threshold : Nat) (cutoff : Rat) (cell : List P)
    (view : List (Rat × P)) : processCell3AoS isHalo newton3 threshold cutoff cell view =
      (cellTriples threshold cutoff cell view).flatMap fun t => interactTriple isHalo newton3 t.1 t.2.1 t.2.2 := by
  unfold processCell3AoS cellTriples
  split <;> simp [List.flatMap_map]

omit [DecidableEq P] in
theorem farProj_false_of_between {dir : V3 Rat} {c : Rat} {x y z : Rat × P} (h1 : x.1 ≤ z.1) (h2 : z.1 ≤ y.1)
    (h : farProj dir c x y = false) : farProj dir c x z = false := by
  by_contra hc
  have := farProj_mono x z y h1 h2 (by simpa using hc)
  rw [h] at this; cases this

omit [DecidableEq P] in
theorem farProj_self {dir : V3 Rat} {c : Rat} (x : Rat × P) : farProj dir c x x = false := by
  simp only [farProj, decide_eq_false_iff_not, not_lt, sub_self, mul_zero]
  exact mul_nonneg (mul_self_nonneg c) (V3.dot_self_nonneg dir)

section
variable {pos : P → V3 Rat} {threshold : Nat} {cutoff : Rat} {cell : List P} {view : List (Rat × P)} {a b c : P}

omit [DecidableEq P] in
theorem mem_cellTriples (hv : IsSortedView pos ⟨1, 1, 1⟩ cell view) {t : P × P × P}
    (ht : t ∈ cellTriples threshold cutoff cell view) : t.1 ∈ cell ∧ t.2.1 ∈ cell ∧ t.2.2 ∈ cell := by
  unfold cellTriples at ht
  split at ht
  · obtain ⟨s, hs, rfl⟩ := List.mem_map.1 ht
    have := mem_tripleLoop hs
    exact ⟨(hv.of_mem this.1).1, (hv.of_mem this.2.1).1, (hv.of_mem this.2.2).1⟩
  · exact mem_tripleLoop ht

omit [DecidableEq P] in
theorem cellTriples_ne (hnd : cell.Nodup) (hv : IsSortedView pos ⟨1, 1, 1⟩ cell view) {t : P × P × P}
    (ht : t ∈ cellTriples threshold cutoff cell view) : t.1 ≠ t.2.1 ∧ t.1 ≠ t.2.2 ∧ t.2.1 ≠ t.2.2 := by
  unfold cellTriples at ht
  split at ht
  · obtain ⟨s, hs, rfl⟩ := List.mem_map.1 ht
    exact tripleLoop_ne (get := Prod.snd) (hv.map_snd.nodup_iff.2 hnd) hs
  · exact tripleLoop_ne (get := id) (by simpa using hnd) ht

theorem isTriple_map (l : List ((Rat × P) × (Rat × P) × (Rat × P))) :
    (l.map fun t => (t.1.2, t.2.1.2, t.2.2.2)).countP (isTriple id a b c) = l.countP (isTriple Prod.snd a b c) := by
  rw [List.countP_map]; rfl

theorem cellTriples_le_one (hab : a ≠ b) (hac : a ≠ c) (hbc : b ≠ c) (hnd : cell.Nodup)
    (hv : IsSortedView pos ⟨1, 1, 1⟩ cell view) :
    (cellTriples threshold cutoff cell view).countP (isTriple id a b c) ≤ 1 := by
  unfold cellTriples
  split
  · rw [isTriple_map]
    exact tripleLoop_le_one hab hac hbc (hv.map_snd.nodup_iff.2 hnd)
  · exact tripleLoop_le_one hab hac hbc (by simpa using hnd)

theorem cellTriples_eq_one (hab : a ≠ b) (hac : a ≠ c) (hbc : b ≠ c) (hnd : cell.Nodup)
    (hv : IsSortedView pos ⟨1, 1, 1⟩ cell view) (ha : a ∈ cell) (hb : b ∈ cell) (hc : c ∈ cell)
    (h : cell.length ≤ threshold ∨ (Near pos cutoff a b ∧ Near pos cutoff a c ∧ Near pos cutoff b c)) :
    (cellTriples threshold cutoff cell view).countP (isTriple id a b c) = 1 := by
  unfold cellTriples
  split
  · rename_i hl
    obtain ⟨n1, n2, n3⟩ : Near pos cutoff a b ∧ Near pos cutoff a c ∧ Near pos cutoff b c := by
      rcases h with h | h
      · omega
      · exact h
    rw [isTriple_map]
    set f : P → Rat × P := fun p => ((pos p).dot ⟨1, 1, 1⟩, p) with hf
    have far : ∀ x ∈ [f a, f b, f c], ∀ y ∈ [f a, f b, f c], farProj ⟨1, 1, 1⟩ cutoff x y = false := by
      intro x hx y hy
      simp only [List.mem_cons, List.not_mem_nil, or_false] at hx hy
      rcases hx with rfl | rfl | rfl <;> rcases hy with rfl | rfl | rfl <;>
        first
          | exact farProj_self _
          | exact not_farProj n1
          | exact not_farProj n2
          | exact not_farProj n3
          | exact not_farProj (near_symm n1)
          | exact not_farProj (near_symm n2)
          | exact not_farProj (near_symm n3)
    refine tripleLoop_eq_one (get := Prod.snd) (key := Prod.fst) (u := f a) (v := f b) (w := f c)
      hv.2 (hv.map_snd.nodup_iff.2 hnd) hab hac hbc (hv.mem ha) (hv.mem hb) (hv.mem hc) ?_ ?_
    · intro x hx y hy z h1 h2
      exact farProj_false_of_between h1 h2 (far x hx y hy)
    · intro x hx y hy q hq z h1 h2 h3
      simp only [farProj3, Bool.or_eq_false_iff]
      exact ⟨farProj_false_of_between (h1.trans h2) h3 (far x hx q hq), farProj_false_of_between h2 h3 (far y hy q hq)⟩
  · exact tripleLoop_eq_one (get := id) (key := fun _ => 0) (u := a) (v := b) (w := c) (pairwise_zero _) (by simpa using hnd)
      hab hac hbc ha hb hc (fun _ _ _ _ _ _ _ => rfl) (fun _ _ _ _ _ _ _ _ _ _ => rfl)
end

/-- Two cells. -/
def pairTriples (threshold : Nat) (cutoff : Rat) (dir : V3 Rat) (cell1 cell2 : List P) (view1 view2 : List (Rat × P)) :
    List ((P × P × P) × Bool) :=
  if cell1.length + cell2.length > threshold ∧ dir ≠ ⟨0, 0, 0⟩ then
    (pairTripleLoop (farProj dir cutoff) (farProj3 dir cutoff) view2 view1).map fun t =>
      ((t.1.1.2, t.1.2.1.2, t.1.2.2.2), t.2)
  else pairTripleLoop (fun _ _ => false) (fun _ _ _ => false) cell2 cell1

omit [DecidableEq P] in
theorem processCellPair3AoS_eq (newton3 bidirectional : Bool) (threshold : Nat) (cutoff : Rat) (dir : V3 Rat)
    (cell1 cell2 : List P) (view1 view2 : List (Rat × P)) :
    processCellPair3AoS newton3 bidirectional threshold cutoff dir cell1 cell2 view1 view2 =
      (pairTriples threshold cutoff dir cell1 cell2 view1 view2).flatMap fun t =>
        interactPairTriple newton3 bidirectional t.1.1 t.1.2.1 t.1.2.2 t.2 := by
  unfold processCellPair3AoS pairTriples
  split <;> simp [List.flatMap_map]

section
variable {pos : P → V3 Rat} {threshold : Nat} {cutoff : Rat} {dir : V3 Rat} {cell1 cell2 : List P}
  {view1 view2 : List (Rat × P)} {a b c : P}

omit [DecidableEq P] in
theorem mem_pairTriples (hv1 : IsSortedView pos dir cell1 view1) (hv2 : IsSortedView pos dir cell2 view2)
    {t : (P × P × P) × Bool} (ht : t ∈ pairTriples threshold cutoff dir cell1 cell2 view1 view2) :
    t.1.1 ∈ cell1 ∧ t.1.2.2 ∈ cell2 ∧ (t.2 = true → t.1.2.1 ∈ cell1) ∧ (t.2 = false → t.1.2.1 ∈ cell2) := by
  unfold pairTriples at ht
  split at ht
  · obtain ⟨s, hs, rfl⟩ := List.mem_map.1 ht
    obtain ⟨m1, m2, m3, m4⟩ := mem_pairTripleLoop hs
    exact ⟨(hv1.of_mem m1).1, (hv2.of_mem m2).1, fun h => (hv1.of_mem (m3 h)).1, fun h => (hv2.of_mem (m4 h)).1⟩
  · exact mem_pairTripleLoop ht

omit [DecidableEq P] in
theorem pairTriples_ne (hnd1 : cell1.Nodup) (hnd2 : cell2.Nodup) (hdis : ∀ p ∈ cell1, p ∉ cell2)
    (hv1 : IsSortedView pos dir cell1 view1) (hv2 : IsSortedView pos dir cell2 view2)
    {t : (P × P × P) × Bool} (ht : t ∈ pairTriples threshold cutoff dir cell1 cell2 view1 view2) :
    t.1.1 ≠ t.1.2.1 ∧ t.1.1 ≠ t.1.2.2 ∧ t.1.2.1 ≠ t.1.2.2 := by
  unfold pairTriples at ht
  split at ht
  · obtain ⟨s, hs, rfl⟩ := List.mem_map.1 ht
    exact pairTripleLoop_ne (get := Prod.snd) (hv1.map_snd.nodup_iff.2 hnd1) (hv2.map_snd.nodup_iff.2 hnd2)
      (fun x hx y hy e => hdis _ (hv1.of_mem hx).1 (e ▸ (hv2.of_mem hy).1)) hs
  · exact pairTripleLoop_ne (get := id) (by simpa using hnd1) (by simpa using hnd2)
      (fun x hx y hy e => hdis x hx (by rw [show x = y from e]; exact hy)) ht

theorem isTriple_map' (l : List (((Rat × P) × (Rat × P) × (Rat × P)) × Bool)) :
    (l.map fun t => ((t.1.1.2, t.1.2.1.2, t.1.2.2.2), t.2)).countP (fun t => isTriple id a b c t.1) =
      l.countP (fun t => isTriple Prod.snd a b c t.1) := by
  rw [List.countP_map]; rfl

theorem notBehind_far (hv1 : IsSortedView pos dir cell1 view1) (hv2 : IsSortedView pos dir cell2 view2)
    (hnb : NotBehind pos dir cutoff cell1 cell2) {x y z : Rat × P} (hx : x ∈ view1) (hz : z ∈ view2)
    (hzy : z.1 ≤ y.1) (hxy : farProj dir cutoff x y = false) : farProj dir cutoff x z = false := by
  have hx' := hv1.of_mem hx
  have hz' := hv2.of_mem hz
  by_cases hlt : z.1 < x.1
  · have := hnb x.2 hx'.1 z.2 hz'.1 (by rw [← hz'.2, ← hx'.2]; exact hlt)
    rw [← hz'.2, ← hx'.2] at this
    simp only [farProj, decide_eq_false_iff_not, not_lt]
    nlinarith
  · exact farProj_false_of_between (le_of_not_gt hlt) hzy hxy

theorem pairTriples_two_one_le (hnd1 : cell1.Nodup) (hnd2 : cell2.Nodup) (hdis : ∀ p ∈ cell1, p ∉ cell2)
    (hv1 : IsSortedView pos dir cell1 view1) (hv2 : IsSortedView pos dir cell2 view2)
    (ha : a ∈ cell1) (hb : b ∈ cell1) (hc : c ∈ cell2) :
    (pairTriples threshold cutoff dir cell1 cell2 view1 view2).countP (fun t => isTriple id a b c t.1) ≤ 1 := by
  unfold pairTriples
  split
  · rw [isTriple_map']
    exact pairTripleLoop_two_one_le (hv1.map_snd.nodup_iff.2 hnd1) (hv2.map_snd.nodup_iff.2 hnd2)
      (fun x hx e => hdis _ (hv1.of_mem hx).1 (e ▸ hc)) (fun x hx e => hdis a ha (e ▸ (hv2.of_mem hx).1))
      (fun x hx e => hdis b hb (e ▸ (hv2.of_mem hx).1))
  · refine pairTripleLoop_two_one_le (get := id) (by simpa using hnd1) (by simpa using hnd2)
      (fun x hx e => hdis x hx ?_) (fun x hx e => hdis a ha ?_) (fun x hx e => hdis b hb ?_)
    · rw [show x = c from e]; exact hc
    · rw [← show x = a from e]; exact hx
    · rw [← show x = b from e]; exact hx

theorem pairTriples_two_one_eq (hnd1 : cell1.Nodup) (hnd2 : cell2.Nodup) (hdis : ∀ p ∈ cell1, p ∉ cell2)
    (hv1 : IsSortedView pos dir cell1 view1) (hv2 : IsSortedView pos dir cell2 view2)
    (ha : a ∈ cell1) (hb : b ∈ cell1) (hc : c ∈ cell2) (hab : a ≠ b)
    (h : cell1.length + cell2.length ≤ threshold ∨ dir = ⟨0, 0, 0⟩ ∨
      ((Near pos cutoff a b ∧ Near pos cutoff a c ∧ Near pos cutoff b c) ∧ NotBehind pos dir cutoff cell1 cell2)) :
    (pairTriples threshold cutoff dir cell1 cell2 view1 view2).countP (fun t => isTriple id a b c t.1) = 1 := by
  unfold pairTriples
  split
  · rename_i hl
    obtain ⟨⟨n1, n2, n3⟩, hnb⟩ : (Near pos cutoff a b ∧ Near pos cutoff a c ∧ Near pos cutoff b c) ∧
        NotBehind pos dir cutoff cell1 cell2 := by
      rcases h with h | h | h
      · omega
      · exact absurd h hl.2
      · exact h
    rw [isTriple_map']
    set f : P → Rat × P := fun p => ((pos p).dot dir, p) with hf
    have f1 : ∀ x ∈ [f a, f b], ∀ y ∈ [f a, f b], farProj dir cutoff x y = false := by
      intro x hx y hy
      simp only [List.mem_cons, List.not_mem_nil, or_false] at hx hy
      rcases hx with rfl | rfl <;> rcases hy with rfl | rfl
      · exact farProj_self _
      · exact not_farProj n1
      · exact not_farProj (near_symm n1)
      · exact farProj_self _
    have f2 : ∀ x ∈ [f a, f b], farProj dir cutoff x (f c) = false ∧ x ∈ view1 := by
      intro x hx
      simp only [List.mem_cons, List.not_mem_nil, or_false] at hx
      rcases hx with rfl | rfl
      · exact ⟨not_farProj n2, hv1.mem ha⟩
      · exact ⟨not_farProj n3, hv1.mem hb⟩
    refine pairTripleLoop_two_one_eq (get := Prod.snd) (key := Prod.fst) (u := f a) (v := f b) (w := f c)
      hv1.2 hv2.2 (hv1.map_snd.nodup_iff.2 hnd1) (hv2.map_snd.nodup_iff.2 hnd2)
      (fun x hx y hy e => hdis _ (hv1.of_mem hx).1 (e ▸ (hv2.of_mem hy).1))
      (fun x hx e => hdis a ha (show a ∈ cell2 from (show x.2 = a from e) ▸ (hv2.of_mem hx).1))
      (fun x hx e => hdis b hb (show b ∈ cell2 from (show x.2 = b from e) ▸ (hv2.of_mem hx).1))
      hab (hv1.mem ha) (hv1.mem hb) (hv2.mem hc) ?_ ?_
    · intro x hx y hy z h1 h2
      exact farProj_false_of_between h1 h2 (f1 x hx y hy)
    · intro x hx y hy z hz h1
      simp only [farProj3, Bool.or_eq_false_iff]
      exact ⟨notBehind_far hv1 hv2 hnb (f2 x hx).2 hz h1 (f2 x hx).1, notBehind_far hv1 hv2 hnb (f2 y hy).2 hz h1 (f2 y hy).1⟩
  · refine pairTripleLoop_two_one_eq (get := id) (key := fun _ => 0) (u := a) (v := b) (w := c) (pairwise_zero _)
      (pairwise_zero _) (by simpa using hnd1) (by simpa using hnd2) (fun x hx y hy e => hdis x hx ?_)
      (fun x hx e => hdis a ha ?_) (fun x hx e => hdis b hb ?_) hab ha hb hc (fun _ _ _ _ _ _ _ => rfl)
      (fun _ _ _ _ _ _ _ => rfl)
    · rw [show x = y from e]; exact hy
    · rw [← show x = a from e]; exact hx
    · rw [← show x = b from e]; exact hx

theorem pairTriples_one_two_le (hnd1 : cell1.Nodup) (hnd2 : cell2.Nodup) (hdis : ∀ p ∈ cell1, p ∉ cell2)
    (hv1 : IsSortedView pos dir cell1 view1) (hv2 : IsSortedView pos dir cell2 view2)
    (ha : a ∈ cell1) (hb : b ∈ cell2) (hc : c ∈ cell2) (hbc : b ≠ c) :
    (pairTriples threshold cutoff dir cell1 cell2 view1 view2).countP (fun t => isTriple id a b c t.1) ≤ 1 := by
  unfold pairTriples
  split
  · rw [isTriple_map']
    have := pairTripleLoop_one_two (get := Prod.snd) (stop2 := farProj dir cutoff) (stop3 := farProj3 dir cutoff)
      (l₂ := view2) (u := ((pos a).dot dir, a)) (b := b) (c := c) (hv1.map_snd.nodup_iff.2 hnd1)
      (fun x hx e => hdis _ (hv1.of_mem hx).1 (e ▸ hb)) (fun x hx e => hdis _ (hv1.of_mem hx).1 (e ▸ hc))
      (fun x hx e => hdis a ha (show a ∈ cell2 from (show x.2 = a from e) ▸ (hv2.of_mem hx).1)) (hv1.mem ha)
    rw [this]
    exact tripleInner_le_one hbc (hv2.map_snd.nodup_iff.2 hnd2)
  · have := pairTripleLoop_one_two (get := id) (stop2 := fun _ _ => false) (stop3 := fun _ _ _ => false)
      (l := cell1) (l₂ := cell2) (u := a) (b := b) (c := c) (by simpa using hnd1)
      (fun x hx e => hdis x hx (by rw [show x = b from e]; exact hb))
      (fun x hx e => hdis x hx (by rw [show x = c from e]; exact hc))
      (fun x hx e => hdis a ha (by rw [← show x = a from e]; exact hx)) ha
    simp only [id] at this
    rw [this]
    exact tripleInner_le_one hbc (by simpa using hnd2)

theorem pairTriples_one_two_eq (hnd1 : cell1.Nodup) (hnd2 : cell2.Nodup) (hdis : ∀ p ∈ cell1, p ∉ cell2)
    (hv1 : IsSortedView pos dir cell1 view1) (hv2 : IsSortedView pos dir cell2 view2)
    (ha : a ∈ cell1) (hb : b ∈ cell2) (hc : c ∈ cell2) (hbc : b ≠ c)
    (h : cell1.length + cell2.length ≤ threshold ∨ dir = ⟨0, 0, 0⟩ ∨
      ((Near pos cutoff a b ∧ Near pos cutoff a c ∧ Near pos cutoff b c) ∧ NotBehind pos dir cutoff cell1 cell2)) :
    (pairTriples threshold cutoff dir cell1 cell2 view1 view2).countP (fun t => isTriple id a b c t.1) = 1 := by
  unfold pairTriples
  split
  · rename_i hl
    obtain ⟨⟨n1, n2, n3⟩, hnb⟩ : (Near pos cutoff a b ∧ Near pos cutoff a c ∧ Near pos cutoff b c) ∧
        NotBehind pos dir cutoff cell1 cell2 := by
      rcases h with h | h | h
      · omega
      · exact absurd h hl.2
      · exact h
    rw [isTriple_map']
    have := pairTripleLoop_one_two (get := Prod.snd) (stop2 := farProj dir cutoff) (stop3 := farProj3 dir cutoff)
      (l₂ := view2) (u := ((pos a).dot dir, a)) (b := b) (c := c) (hv1.map_snd.nodup_iff.2 hnd1)
      (fun x hx e => hdis _ (hv1.of_mem hx).1 (e ▸ hb)) (fun x hx e => hdis _ (hv1.of_mem hx).1 (e ▸ hc))
      (fun x hx e => hdis a ha (show a ∈ cell2 from (show x.2 = a from e) ▸ (hv2.of_mem hx).1)) (hv1.mem ha)
    rw [this]
    have va := hv1.mem ha
    have fb : farProj dir cutoff ((pos a).dot dir, a) ((pos b).dot dir, b) = false := not_farProj n1
    have fc : farProj dir cutoff ((pos a).dot dir, a) ((pos c).dot dir, c) = false := not_farProj n2
    refine tripleInner_eq_one (get := Prod.snd) (key := Prod.fst) (u := ((pos b).dot dir, b)) (v := ((pos c).dot dir, c))
      hv2.2 (hv2.map_snd.nodup_iff.2 hnd2) hbc (hv2.mem hb) (hv2.mem hc)
      (fun z hz h1 => notBehind_far hv1 hv2 hnb va hz h1 fb) (fun z hz h1 => notBehind_far hv1 hv2 hnb va hz h1 fc) ?_ ?_
    · intro z hz h1 h2
      simp only [farProj3, Bool.or_eq_false_iff]
      exact ⟨notBehind_far hv1 hv2 hnb va hz h2 fc, farProj_false_of_between h1 h2 (not_farProj n3)⟩
    · intro z hz h1 h2
      simp only [farProj3, Bool.or_eq_false_iff]
      exact ⟨notBehind_far hv1 hv2 hnb va hz h2 fb, farProj_false_of_between h1 h2 (not_farProj (near_symm n3))⟩
  · have := pairTripleLoop_one_two (get := id) (stop2 := fun _ _ => false) (stop3 := fun _ _ _ => false)
      (l := cell1) (l₂ := cell2) (u := a) (b := b) (c := c) (by simpa using hnd1)
      (fun x hx e => hdis x hx (by rw [show x = b from e]; exact hb))
      (fun x hx e => hdis x hx (by rw [show x = c from e]; exact hc))
      (fun x hx e => hdis a ha (by rw [← show x = a from e]; exact hx)) ha
    simp only [id] at this
    rw [this]
    exact tripleInner_eq_one (get := id) (key := fun _ => 0) (u := b) (v := c) (pairwise_zero _) (by simpa using hnd2) hbc hb hc
      (fun _ _ _ => rfl) (fun _ _ _ => rfl) (fun _ _ _ _ => rfl) (fun _ _ _ _ => rfl)
end

/-- Three cells. -/
def crossTriples (threshold : Nat) (cutoff : Rat) (dir : V3 Rat) (cell1 cell2 cell3 : List P) (view1 view2 : List (Rat × P)) :
    List (P × P × P) :=
  if cell1.length + cell2.length + cell3.length > threshold ∧ dir ≠ ⟨0, 0, 0⟩ then
    (crossLoop (farProj dir cutoff) view1 view2).flatMap fun t => cell3.map fun r => (t.1.2, t.2.2, r)
  else (crossLoop (fun _ _ => false) cell1 cell2).flatMap fun t => cell3.map fun r => (t.1, t.2, r)

omit [DecidableEq P] in
theorem processCellTripleAoS_eq (newton3 bidirectional : Bool) (threshold : Nat) (cutoff : Rat) (dir : V3 Rat)
    (cell1 cell2 cell3 : List P) (view1 view2 : List (Rat × P)) :
    processCellTripleAoS newton3 bidirectional threshold cutoff dir cell1 cell2 cell3 view1 view2 =
      (crossTriples threshold cutoff dir cell1 cell2 cell3 view1 view2).flatMap fun t =>
        interactCrossTriple newton3 bidirectional t.1 t.2.1 t.2.2 := by
  unfold processCellTripleAoS crossTriples
  split <;> simp [List.flatMap_map, List.flatMap_assoc]

theorem product_count {X : Type} {get : X → P} {l : List (X × X)} {cell3 : List P} {a b c : P} (hnd3 : cell3.Nodup)
    (hc : c ∈ cell3) (hx : ∀ t ∈ l, get t.1 ≠ b ∧ get t.1 ≠ c) (hy : ∀ t ∈ l, get t.2 ≠ a ∧ get t.2 ≠ c) :
    (l.flatMap fun t => cell3.map fun r => (get t.1, get t.2, r)).countP (isTriple id a b c) =
      l.countP (fun t => get t.1 = a ∧ get t.2 = b) := by
  apply countP_flatMap_indicator
  intro t ht
  rw [List.countP_map]
  obtain ⟨x1, x2⟩ := hx t ht
  obtain ⟨y1, y2⟩ := hy t ht
  by_cases h : get t.1 = a ∧ get t.2 = b
  · rw [if_pos (by simpa using h)]
    rw [← List.count_eq_one_of_mem hnd3 hc, List.count]
    apply List.countP_congr
    intro r _
    simp only [Function.comp, isTriple, id, decide_eq_true_eq, h.1, h.2, beq_iff_eq]
    rw [List.perm_cons, List.perm_cons]
    simp
  · rw [if_neg (by simpa using h), List.countP_eq_zero]
    intro r _ hcc
    apply h
    have k1 := isTriple_first_mem hcc
    have k2 := (isTriple_mem hcc).1
    simp only [id] at k1 k2
    exact ⟨k1.resolve_right (fun h => h.elim x1 x2), (k2.resolve_left y1).resolve_right y2⟩

section
variable {pos : P → V3 Rat} {threshold : Nat} {cutoff : Rat} {dir : V3 Rat} {cell1 cell2 cell3 : List P}
  {view1 view2 : List (Rat × P)} {a b c : P}

omit [DecidableEq P] in
theorem mem_crossTriples (hv1 : IsSortedView pos dir cell1 view1) (hv2 : IsSortedView pos dir cell2 view2)
    {t : P × P × P} (ht : t ∈ crossTriples threshold cutoff dir cell1 cell2 cell3 view1 view2) :
    t.1 ∈ cell1 ∧ t.2.1 ∈ cell2 ∧ t.2.2 ∈ cell3 := by
  unfold crossTriples at ht
  split at ht
  · simp only [List.mem_flatMap, List.mem_map] at ht
    obtain ⟨s, hs, r, hr, rfl⟩ := ht
    obtain ⟨m1, m2⟩ := mem_crossLoop hs
    exact ⟨(hv1.of_mem m1).1, (hv2.of_mem m2).1, hr⟩
  · simp only [List.mem_flatMap, List.mem_map] at ht
    obtain ⟨s, hs, r, hr, rfl⟩ := ht
    obtain ⟨m1, m2⟩ := mem_crossLoop hs
    exact ⟨m1, m2, hr⟩

/-- The triplets of three cells are the pairs of the first two, each with every particle of the third. -/
theorem crossTriples_count (hnd3 : cell3.Nodup) (h12 : ∀ p ∈ cell1, p ∉ cell2) (h13 : ∀ p ∈ cell1, p ∉ cell3)
    (h23 : ∀ p ∈ cell2, p ∉ cell3) (hv1 : IsSortedView pos dir cell1 view1) (hv2 : IsSortedView pos dir cell2 view2)
    (ha : a ∈ cell1) (hb : b ∈ cell2) (hc : c ∈ cell3) :
    (crossTriples threshold cutoff dir cell1 cell2 cell3 view1 view2).countP (isTriple id a b c) =
      if cell1.length + cell2.length + cell3.length > threshold ∧ dir ≠ ⟨0, 0, 0⟩ then
        (crossLoop (farProj dir cutoff) view1 view2).countP (fun t => t.1.2 = a ∧ t.2.2 = b)
      else (crossLoop (fun _ _ => false) cell1 cell2).countP (fun t => t.1 = a ∧ t.2 = b) := by
  unfold crossTriples
  split
  · refine product_count (get := Prod.snd) hnd3 hc ?_ ?_
    · intro t ht
      have m := (hv1.of_mem (mem_crossLoop ht).1).1
      exact ⟨fun e => h12 _ m (by rw [e]; exact hb), fun e => h13 _ m (by rw [e]; exact hc)⟩
    · intro t ht
      have m := (hv2.of_mem (mem_crossLoop ht).2).1
      exact ⟨fun e => h12 _ ha (by rw [← e]; exact m), fun e => h23 _ m (by rw [e]; exact hc)⟩
  · refine product_count (get := id) hnd3 hc ?_ ?_
    · intro t ht
      have m := (mem_crossLoop ht).1
      exact ⟨fun e => h12 _ m (by rw [show t.1 = b from e]; exact hb), fun e => h13 _ m (by rw [show t.1 = c from e]; exact hc)⟩
    · intro t ht
      have m := (mem_crossLoop ht).2
      exact ⟨fun e => h12 _ ha (by rw [← show t.2 = a from e]; exact m), fun e => h23 _ m (by rw [show t.2 = c from e]; exact hc)⟩

theorem crossTriples_le_one (hnd1 : cell1.Nodup) (hnd2 : cell2.Nodup) (hnd3 : cell3.Nodup) (h12 : ∀ p ∈ cell1, p ∉ cell2)
    (h13 : ∀ p ∈ cell1, p ∉ cell3) (h23 : ∀ p ∈ cell2, p ∉ cell3) (hv1 : IsSortedView pos dir cell1 view1)
    (hv2 : IsSortedView pos dir cell2 view2) (ha : a ∈ cell1) (hb : b ∈ cell2) (hc : c ∈ cell3) :
    (crossTriples threshold cutoff dir cell1 cell2 cell3 view1 view2).countP (isTriple id a b c) ≤ 1 := by
  rw [crossTriples_count hnd3 h12 h13 h23 hv1 hv2 ha hb hc]
  split
  · exact crossLoop_le_one (get := Prod.snd) (hv1.map_snd.nodup_iff.2 hnd1) (hv2.map_snd.nodup_iff.2 hnd2)
  · exact crossLoop_le_one (get := id) (by simpa using hnd1) (by simpa using hnd2)

theorem crossTriples_eq_one (hnd1 : cell1.Nodup) (hnd2 : cell2.Nodup) (hnd3 : cell3.Nodup) (h12 : ∀ p ∈ cell1, p ∉ cell2)
    (h13 : ∀ p ∈ cell1, p ∉ cell3) (h23 : ∀ p ∈ cell2, p ∉ cell3) (hv1 : IsSortedView pos dir cell1 view1)
    (hv2 : IsSortedView pos dir cell2 view2) (ha : a ∈ cell1) (hb : b ∈ cell2) (hc : c ∈ cell3)
    (h : cell1.length + cell2.length + cell3.length ≤ threshold ∨ dir = ⟨0, 0, 0⟩ ∨
      (Near pos cutoff a b ∧ NotBehind pos dir cutoff cell1 cell2)) :
    (crossTriples threshold cutoff dir cell1 cell2 cell3 view1 view2).countP (isTriple id a b c) = 1 := by
  rw [crossTriples_count hnd3 h12 h13 h23 hv1 hv2 ha hb hc]
  split
  · rename_i hl
    obtain ⟨n1, hnb⟩ : Near pos cutoff a b ∧ NotBehind pos dir cutoff cell1 cell2 := by
      rcases h with h | h | h
      · omega
      · exact absurd h hl.2
      · exact h
    have := crossPairs_eq_one (threshold := 0) hnd1 hnd2 hv1 hv2 ha hb (.inr (.inr ⟨n1, hnb⟩))
    have hlen : cell1.length + cell2.length > 0 := by
      have := List.length_pos_of_mem ha
      omega
    unfold crossPairs at this
    rw [if_pos ⟨hlen, hl.2⟩, List.countP_map] at this
    exact this
  · exact crossLoop_eq_one (get := id) (key := fun _ => 0) (u := a) (v := b) (pairwise_zero _) (by simpa using hnd1)
      (by simpa using hnd2) ha hb (fun _ _ _ h => h) rfl
end
end
end Verif
