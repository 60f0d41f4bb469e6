import Verif.Lemmas.CellFunctor3B
/-!
# C19 — the three-body cell functor applies the functor exactly once per triplet

`processCell3`, `processCellPair3`, `processCellTriple` return the calls `AoSFunctor(p, q, r, newton3)` made for one, two
and three cells. `NearTriple` demands all three distances within the sorting cutoff. Each theorem covers the unsorted case
(few particles or no sorting direction) for all triplets and the sorted case for near triplets.
-/
namespace Verif
open Spec

variable {P : Type} [DecidableEq P] {pos : P → V3 Rat} {isHalo : P → Bool} {threshold : Nat} {cutoff : Rat} {dir : V3 Rat}

/-- All three distances are within `c`. -/
def NearTriple (pos : P → V3 Rat) (c : Rat) (p q r : P) : Prop := Near pos c p q ∧ Near pos c p r ∧ Near pos c q r

private theorem nonempty_of_mem {l : List P} {a : P} (h : a ∈ l) : l.isEmpty = false := by
  rw [List.isEmpty_eq_false_iff]; exact List.ne_nil_of_mem h

/-- One cell, Newton 3: every triplet of the cell with a non-halo particle is processed once. -/
theorem C19_cell_newton3_exactly_once {cell : PCell P} {view : List (Rat × P)} {a b c : P} (hnd : cell.particles.Nodup)
    (hv : IsSortedView pos ⟨1, 1, 1⟩ cell.particles view) (hf : FlagOk isHalo cell)
    (ha : a ∈ cell.particles) (hb : b ∈ cell.particles) (hc : c ∈ cell.particles) (hab : a ≠ b) (hac : a ≠ c) (hbc : b ≠ c)
    (hh : isHalo a = false ∨ isHalo b = false ∨ isHalo c = false)
    (h : cell.particles.length ≤ threshold ∨ NearTriple pos cutoff a b c) :
    timesTriple (processCell3 isHalo true threshold cutoff cell view) a b c = 1 := by
  have ho : cell.hasOwned = true := hh.elim (hf a ha) (fun h => h.elim (hf b hb) (hf c hc))
  unfold processCell3
  rw [nonempty_of_mem ha, ho, processCell3AoS_eq]
  simp only [Bool.false_eq_true, if_false, Bool.not_true]
  rw [single3_unordered]
  exact cellTriples_eq_one hab hac hbc hnd hv ha hb hc h

/-- One cell, no Newton 3: every non-halo particle is first partner of every two others exactly once, halo particles never. -/
theorem C19_cell_no_newton3_exactly_once_per_particle {cell : PCell P} {view : List (Rat × P)} {a b c : P}
    (hnd : cell.particles.Nodup) (hv : IsSortedView pos ⟨1, 1, 1⟩ cell.particles view) (hf : FlagOk isHalo cell)
    (ha : a ∈ cell.particles) (hb : b ∈ cell.particles) (hc : c ∈ cell.particles) (hab : a ≠ b) (hac : a ≠ c) (hbc : b ≠ c)
    (h : cell.particles.length ≤ threshold ∨ NearTriple pos cutoff a b c) :
    timesTripleFirst (processCell3 isHalo false threshold cutoff cell view) a b c = if isHalo a then 0 else 1 := by
  unfold processCell3
  rw [nonempty_of_mem ha, processCell3AoS_eq]
  simp only [Bool.false_eq_true, if_false]
  split
  · rename_i ho
    have : isHalo a = true := by
      by_contra hc
      have := hf a ha (by simpa using hc)
      simp [this] at ho
    simp [this, timesTripleFirst]
  · rw [single3_first (fun t ht => cellTriples_ne hnd hv ht), cellTriples_eq_one hab hac hbc hnd hv ha hb hc h]

/-- One cell: no triplet is processed twice, sorted or not. -/
theorem C19_cell_at_most_once {cell : PCell P} {view : List (Rat × P)} {a b c : P} (hnd : cell.particles.Nodup)
    (hv : IsSortedView pos ⟨1, 1, 1⟩ cell.particles view) (hab : a ≠ b) (hac : a ≠ c) (hbc : b ≠ c) :
    timesTriple (processCell3 isHalo true threshold cutoff cell view) a b c ≤ 1 ∧
    timesTripleFirst (processCell3 isHalo false threshold cutoff cell view) a b c ≤ 1 := by
  unfold processCell3
  rw [processCell3AoS_eq, processCell3AoS_eq]
  have h1 := cellTriples_le_one (threshold := threshold) (cutoff := cutoff) hab hac hbc hnd hv
  constructor
  · split
    · simp [timesTriple]
    · split
      · simp [timesTriple]
      · rw [single3_unordered]; exact h1
  · split
    · simp [timesTripleFirst]
    · split
      · simp [timesTripleFirst]
      · rw [single3_first (fun t ht => cellTriples_ne hnd hv ht)]
        split
        · omega
        · exact h1

section
variable {cell1 cell2 : PCell P} {view1 view2 : List (Rat × P)} {a b c : P} (bidirectional : Bool)
    (hnd1 : cell1.particles.Nodup) (hnd2 : cell2.particles.Nodup) (hdis : ∀ p ∈ cell1.particles, p ∉ cell2.particles)
    (hv1 : IsSortedView pos dir cell1.particles view1) (hv2 : IsSortedView pos dir cell2.particles view2)
    (hf1 : FlagOk isHalo cell1) (hf2 : FlagOk isHalo cell2)

include hnd1 hnd2 hdis hv1 hv2 in
/-- All triplets of two cells, in terms of the loops. -/
private theorem pair_loop_one (ha : a ∈ cell1.particles) (hb : b ∈ cell1.particles ∨ b ∈ cell2.particles) (hc : c ∈ cell2.particles)
    (hab : a ≠ b) (hbc : b ≠ c)
    (h : cell1.particles.length + cell2.particles.length ≤ threshold ∨ dir = ⟨0, 0, 0⟩ ∨
      (NearTriple pos cutoff a b c ∧ NotBehind pos dir cutoff cell1.particles cell2.particles)) :
    (pairTriples threshold cutoff dir cell1.particles cell2.particles view1 view2).countP (fun t => isTriple id a b c t.1) = 1 := by
  rcases hb with hb | hb
  · exact pairTriples_two_one_eq hnd1 hnd2 hdis hv1 hv2 ha hb hc hab h
  · exact pairTriples_one_two_eq hnd1 hnd2 hdis hv1 hv2 ha hb hc hbc h

include hnd1 hnd2 hdis hv1 hv2 hf1 hf2 in
/-- Two cells, Newton 3: every triplet with members in both cells, not all halo, is processed once. `a` is in the first
cell, `c` in the second, `b` in either. -/
theorem C19_pair_newton3_exactly_once (ha : a ∈ cell1.particles) (hb : b ∈ cell1.particles ∨ b ∈ cell2.particles)
    (hc : c ∈ cell2.particles) (hab : a ≠ b) (hbc : b ≠ c)
    (hh : isHalo a = false ∨ isHalo b = false ∨ isHalo c = false)
    (h : cell1.particles.length + cell2.particles.length ≤ threshold ∨ dir = ⟨0, 0, 0⟩ ∨
      (NearTriple pos cutoff a b c ∧ NotBehind pos dir cutoff cell1.particles cell2.particles)) :
    timesTriple (processCellPair3 true bidirectional threshold cutoff dir cell1 cell2 view1 view2) a b c = 1 := by
  have ho : ¬ (cell1.hasOwned = false ∧ cell2.hasOwned = false) := by
    rintro ⟨o1, o2⟩
    rcases hh with hh | hh | hh
    · rw [hf1 a ha hh] at o1; cases o1
    · rcases hb with hb | hb
      · rw [hf1 b hb hh] at o1; cases o1
      · rw [hf2 b hb hh] at o2; cases o2
    · rw [hf2 c hc hh] at o2; cases o2
  unfold processCellPair3
  rw [nonempty_of_mem ha, nonempty_of_mem hc, if_neg (by simp), if_neg (by simpa using ho), processCellPair3AoS_eq,
    pair3_unordered]
  exact pair_loop_one hnd1 hnd2 hdis hv1 hv2 ha hb hc hab hbc h

include hnd1 hnd2 hdis hv1 hv2 hf1 in
/-- Two cells, no Newton 3, first partner `p` in the first cell: exactly once. `q`, `r` are any two other particles, not both
in the first cell. -/
theorem C19_pair_no_newton3_first_cell {p q r : P} (hp : p ∈ cell1.particles)
    (hq : q ∈ cell1.particles ∨ q ∈ cell2.particles) (hr : r ∈ cell2.particles) (hpq : p ≠ q) (hqr : q ≠ r)
    (hh : isHalo p = false)
    (h : cell1.particles.length + cell2.particles.length ≤ threshold ∨ dir = ⟨0, 0, 0⟩ ∨
      (NearTriple pos cutoff p q r ∧ NotBehind pos dir cutoff cell1.particles cell2.particles)) :
    timesTripleFirst (processCellPair3 false bidirectional threshold cutoff dir cell1 cell2 view1 view2) p q r = 1 := by
  unfold processCellPair3
  rw [nonempty_of_mem hp, nonempty_of_mem hr, if_neg (by simp), if_neg (by simp [hf1 p hp hh]), processCellPair3AoS_eq,
    pair3_first_one (fun t ht => pairTriples_ne hnd1 hnd2 hdis hv1 hv2 ht)]
  · exact pair_loop_one hnd1 hnd2 hdis hv1 hv2 hp hq hr hpq hqr h
  · intro t ht e
    by_contra hc
    exact hdis p hp (e ▸ (mem_pairTriples hv1 hv2 ht).2.2.2 (by simpa using hc))
  · intro t ht e
    exact hdis p hp (e ▸ (mem_pairTriples hv1 hv2 ht).2.1)

include hnd1 hnd2 hdis hv1 hv2 hf2 in
/-- Two cells, no Newton 3, first partner `p` in the second cell: exactly once with bidirectional processing, never
without. `q` is in the first cell, `r` in either. -/
theorem C19_pair_no_newton3_second_cell {p q r : P} (hp : p ∈ cell2.particles)
    (hq : q ∈ cell1.particles) (hr : r ∈ cell1.particles ∨ r ∈ cell2.particles) (hpr : p ≠ r) (hqr : q ≠ r)
    (hh : isHalo p = false)
    (h : cell1.particles.length + cell2.particles.length ≤ threshold ∨ dir = ⟨0, 0, 0⟩ ∨
      (NearTriple pos cutoff p q r ∧ NotBehind pos dir cutoff cell1.particles cell2.particles)) :
    timesTripleFirst (processCellPair3 false bidirectional threshold cutoff dir cell1 cell2 view1 view2) p q r =
      if bidirectional then 1 else 0 := by
  have hx : ∀ t ∈ pairTriples threshold cutoff dir cell1.particles cell2.particles view1 view2, t.1.1 ≠ p := by
    intro t ht e
    exact hdis _ (mem_pairTriples hv1 hv2 ht).1 (e ▸ hp)
  have hy : ∀ t ∈ pairTriples threshold cutoff dir cell1.particles cell2.particles view1 view2, t.1.2.1 = p → t.2 = false := by
    intro t ht e
    by_contra hc
    exact hdis _ ((mem_pairTriples hv1 hv2 ht).2.2.1 (by simpa using hc)) (e ▸ hp)
  have hne := fun t ht => pairTriples_ne (threshold := threshold) (cutoff := cutoff) hnd1 hnd2 hdis hv1 hv2 (t := t) ht
  unfold processCellPair3
  rw [nonempty_of_mem hq, nonempty_of_mem hp, if_neg (by simp)]
  cases bidirectional
  · split
    · simp [timesTripleFirst]
    · rw [processCellPair3AoS_eq, pair3_first_two hne hx hy]
      rfl
  · rw [if_neg (by simp [hf2 p hp hh]), processCellPair3AoS_eq, pair3_first_two hne hx hy, if_pos rfl, if_pos rfl]
    rw [show (fun t : (P × P × P) × Bool => isTriple id p q r t.1) = fun t => isTriple id q r p t.1 from by
      funext t
      rw [isTriple_congr (show [p, q, r].Perm [q, r, p] from List.perm_append_comm (l₁ := [p]) (l₂ := [q, r]))]]
    refine pair_loop_one hnd1 hnd2 hdis hv1 hv2 hq hr hp hqr hpr.symm (h.imp_right (Or.imp_right ?_))
    rintro ⟨⟨n1, n2, n3⟩, hnb⟩
    exact ⟨⟨n3, near_symm n1, near_symm n2⟩, hnb⟩

include hnd1 hnd2 hdis hv1 hv2 in
/-- Two cells, Newton 3: no triplet is processed twice, sorted or not. -/
theorem C19_pair_newton3_at_most_once (ha : a ∈ cell1.particles) (hb : b ∈ cell1.particles ∨ b ∈ cell2.particles)
    (hc : c ∈ cell2.particles) (hbc : b ≠ c) :
    timesTriple (processCellPair3 true bidirectional threshold cutoff dir cell1 cell2 view1 view2) a b c ≤ 1 := by
  unfold processCellPair3
  split
  · simp [timesTriple]
  · split
    · simp [timesTriple]
    · rw [processCellPair3AoS_eq, pair3_unordered]
      rcases hb with hb | hb
      · exact pairTriples_two_one_le hnd1 hnd2 hdis hv1 hv2 ha hb hc
      · exact pairTriples_one_two_le hnd1 hnd2 hdis hv1 hv2 ha hb hc hbc
end

section
variable {cell1 cell2 cell3 : PCell P} {view1 view2 : List (Rat × P)} {a b c : P} (bidirectional : Bool)
    (hnd1 : cell1.particles.Nodup) (hnd2 : cell2.particles.Nodup) (hnd3 : cell3.particles.Nodup)
    (h12 : ∀ p ∈ cell1.particles, p ∉ cell2.particles) (h13 : ∀ p ∈ cell1.particles, p ∉ cell3.particles)
    (h23 : ∀ p ∈ cell2.particles, p ∉ cell3.particles)
    (hv1 : IsSortedView pos dir cell1.particles view1) (hv2 : IsSortedView pos dir cell2.particles view2)
    (hf1 : FlagOk isHalo cell1) (hf2 : FlagOk isHalo cell2) (hf3 : FlagOk isHalo cell3)
    (ha : a ∈ cell1.particles) (hb : b ∈ cell2.particles) (hc : c ∈ cell3.particles)
    (h : cell1.particles.length + cell2.particles.length + cell3.particles.length ≤ threshold ∨ dir = ⟨0, 0, 0⟩ ∨
      (Near pos cutoff a b ∧ NotBehind pos dir cutoff cell1.particles cell2.particles))

include hnd1 hnd2 hnd3 h12 h13 h23 hv1 hv2 hf1 hf2 hf3 ha hb hc h in
/-- Three cells, Newton 3: every triplet with one particle of each cell, not all halo, is processed once. -/
theorem C19_triple_newton3_exactly_once (hh : isHalo a = false ∨ isHalo b = false ∨ isHalo c = false) :
    timesTriple (processCellTriple true bidirectional threshold cutoff dir cell1 cell2 cell3 view1 view2) a b c = 1 := by
  have ho : ¬ (cell1.hasOwned = false ∧ cell2.hasOwned = false ∧ cell3.hasOwned = false) := by
    rintro ⟨o1, o2, o3⟩
    rcases hh with hh | hh | hh
    · rw [hf1 a ha hh] at o1; cases o1
    · rw [hf2 b hb hh] at o2; cases o2
    · rw [hf3 c hc hh] at o3; cases o3
  unfold processCellTriple
  rw [nonempty_of_mem ha, nonempty_of_mem hb, nonempty_of_mem hc, if_neg (by simp), if_neg (by simpa using ho),
    processCellTripleAoS_eq, cross3_unordered]
  exact crossTriples_eq_one hnd1 hnd2 hnd3 h12 h13 h23 hv1 hv2 ha hb hc h

include hnd1 hnd2 hnd3 h12 h13 h23 hv1 hv2 hf1 hf2 hf3 ha hb hc h in
/-- Three cells, no Newton 3: non-halo particles of the first cell are first partner exactly once, those of the other cells
exactly once with bidirectional processing and never without. -/
theorem C19_triple_no_newton3_exactly_once_per_particle :
    (isHalo a = false →
      timesTripleFirst (processCellTriple false bidirectional threshold cutoff dir cell1 cell2 cell3 view1 view2) a b c = 1) ∧
    (isHalo b = false →
      timesTripleFirst (processCellTriple false bidirectional threshold cutoff dir cell1 cell2 cell3 view1 view2) b a c =
        if bidirectional then 1 else 0) ∧
    (isHalo c = false →
      timesTripleFirst (processCellTriple false bidirectional threshold cutoff dir cell1 cell2 cell3 view1 view2) c a b =
        if bidirectional then 1 else 0) := by
  have h1 := crossTriples_eq_one hnd1 hnd2 hnd3 h12 h13 h23 hv1 hv2 ha hb hc h
  have mem := fun t ht => mem_crossTriples (threshold := threshold) (cutoff := cutoff) (cell3 := cell3.particles)
    hv1 hv2 (t := t) ht
  have hne : ∀ t ∈ crossTriples threshold cutoff dir cell1.particles cell2.particles cell3.particles view1 view2,
      t.2.1 ≠ t.2.2 := fun t ht e => h23 _ (mem t ht).2.1 (e ▸ (mem t ht).2.2)
  have eb : isTriple id b a c = isTriple (P := P) id a b c := isTriple_congr (List.Perm.swap _ _ _)
  have ec : isTriple id c a b = isTriple (P := P) id a b c :=
    isTriple_congr (List.perm_append_comm (l₁ := [c]) (l₂ := [a, b]))
  unfold processCellTriple
  rw [nonempty_of_mem ha, nonempty_of_mem hb, nonempty_of_mem hc, if_neg (by simp)]
  refine ⟨fun hh => ?_, fun hh => ?_, fun hh => ?_⟩
  · rw [if_neg (by simp [hf1 a ha hh]), processCellTripleAoS_eq, cross3_first_one]
    · exact h1
    · intro t ht e; exact h12 a ha (e ▸ (mem t ht).2.1)
    · intro t ht e; exact h13 a ha (e ▸ (mem t ht).2.2)
  · have hx : ∀ t ∈ crossTriples threshold cutoff dir cell1.particles cell2.particles cell3.particles view1 view2,
        t.1 ≠ b := fun t ht e => h12 _ (mem t ht).1 (e ▸ hb)
    cases bidirectional
    · split
      · simp [timesTripleFirst]
      · rw [processCellTripleAoS_eq, cross3_first_other hne hx]; rfl
    · rw [if_neg (by simp [hf2 b hb hh]), processCellTripleAoS_eq, cross3_first_other hne hx, eb, h1]
  · have hx : ∀ t ∈ crossTriples threshold cutoff dir cell1.particles cell2.particles cell3.particles view1 view2,
        t.1 ≠ c := fun t ht e => h13 _ (mem t ht).1 (e ▸ hc)
    cases bidirectional
    · split
      · simp [timesTripleFirst]
      · rw [processCellTripleAoS_eq, cross3_first_other hne hx]; rfl
    · rw [if_neg (by simp [hf3 c hc hh]), processCellTripleAoS_eq, cross3_first_other hne hx, ec, h1]

include hnd1 hnd2 hnd3 h12 h13 h23 hv1 hv2 ha hb hc in
omit h in
/-- Three cells, Newton 3: no triplet is processed twice, sorted or not. -/
theorem C19_triple_newton3_at_most_once :
    timesTriple (processCellTriple true bidirectional threshold cutoff dir cell1 cell2 cell3 view1 view2) a b c ≤ 1 := by
  unfold processCellTriple
  split
  · simp [timesTriple]
  · split
    · simp [timesTriple]
    · rw [processCellTripleAoS_eq, cross3_unordered]
      exact crossTriples_le_one hnd1 hnd2 hnd3 h12 h13 h23 hv1 hv2 ha hb hc
end

/-! Non-vacuity: particles `n` at `(n, 0, 0)`; everything sorted (threshold 0). -/

private def exPos (n : Nat) : V3 Rat := ⟨n, 0, 0⟩

example : timesTriple (processCell3 (fun _ => false) true 0 3 ⟨[2, 0, 1], true⟩ [(0, 0), (1, 1), (2, 2)]) 2 1 0 = 1 :=
  C19_cell_newton3_exactly_once (pos := exPos) (by decide)
    ⟨by simp only [exPos, V3.dot]; decide +kernel, by decide +kernel⟩ (fun _ _ _ => rfl)
    (by decide) (by decide) (by decide) (by decide) (by decide) (by decide) (by decide)
    (.inr (by unfold NearTriple Near; decide +kernel))

example : timesTripleFirst (processCellPair3 false true 0 3 ⟨1, 0, 0⟩ ⟨[0, 1], true⟩ ⟨[3, 2], true⟩
    [(0, 0), (1, 1)] [(2, 2), (3, 3)]) 3 1 2 = 1 :=
  C19_pair_no_newton3_second_cell (pos := exPos) (isHalo := fun _ => false) true (by decide) (by decide) (by decide)
    ⟨by simp only [exPos, V3.dot]; decide +kernel, by decide +kernel⟩
    ⟨by simp only [exPos, V3.dot]; decide +kernel, by decide +kernel⟩ (fun _ _ _ => rfl)
    (by decide) (by decide) (by decide) (by decide) (by decide) rfl
    (.inr (.inr ⟨by unfold NearTriple Near; decide +kernel, by unfold NotBehind; decide +kernel⟩))

example : timesTriple (processCellTriple true true 0 3 ⟨1, 0, 0⟩ ⟨[0, 1], true⟩ ⟨[3, 2], true⟩ ⟨[4], false⟩
    [(0, 0), (1, 1)] [(2, 2), (3, 3)]) 1 2 4 = 1 :=
  C19_triple_newton3_exactly_once (pos := exPos) (isHalo := fun n => n == 4) true (by decide) (by decide) (by decide) (by decide)
    (by decide) (by decide)
    ⟨by simp only [exPos, V3.dot]; decide +kernel, by decide +kernel⟩
    ⟨by simp only [exPos, V3.dot]; decide +kernel, by decide +kernel⟩ (fun _ _ _ => rfl) (fun _ _ _ => rfl)
    (by unfold FlagOk; decide) (by decide) (by decide) (by decide)
    (.inr (.inr ⟨by unfold Near; decide +kernel, by unfold NotBehind; decide +kernel⟩)) (by decide)

end Verif
