import Verif.Lemmas.CellFunctor
/-!
# C17 — the cell functor applies the pair functor exactly once per pair

`processCell … cell view` / `processCellPair … cell1 cell2 view1 view2` are the functor calls made for one cell / two
cells; `view` is any sorted view the code may build. `threshold` is the number of particles above which the code sorts.
This file is about cells that are not sorted, and about what holds with and without sorting; C18 about sorted cells.
-/
namespace Verif
open Spec

variable {P : Type} [DecidableEq P] {pos : P → V3 Rat} {isHalo : P → Bool} {threshold : Nat} {cutoff : Rat} {dir : V3 Rat}

/-- What both C17 and C18 say about a single cell with Newton 3. -/
theorem cell_newton3 {cell : PCell P} {view : List (Rat × P)} {a b : P} (hnd : cell.particles.Nodup)
    (hv : IsSortedView pos dir cell.particles view) (hf : FlagOk isHalo cell) (ha : a ∈ cell.particles)
    (hb : b ∈ cell.particles) (hab : a ≠ b) (hh : isHalo a = false ∨ isHalo b = false)
    (h : cell.particles.length ≤ threshold ∨ Near pos cutoff a b) :
    timesUnordered (processCell isHalo true threshold cutoff dir cell view) a b = 1 := by
  have ho : cell.hasOwned = true := hh.elim (hf a ha) (hf b hb)
  have he : cell.particles.isEmpty = false := by
    rw [List.isEmpty_eq_false_iff]; exact List.ne_nil_of_mem ha
  unfold processCell
  rw [he, ho, processCellAoS_eq]
  simp only [Bool.false_eq_true, if_false, Bool.not_true]
  rw [single_unordered]
  exact cellPairs_eq_one hab hnd hv ha hb h

/-- What both C17 and C18 say about a single cell without Newton 3. -/
theorem cell_directed {cell : PCell P} {view : List (Rat × P)} {a b : P} (hnd : cell.particles.Nodup)
    (hv : IsSortedView pos dir cell.particles view) (hf : FlagOk isHalo cell) (ha : a ∈ cell.particles)
    (hb : b ∈ cell.particles) (hab : a ≠ b) (h : cell.particles.length ≤ threshold ∨ Near pos cutoff a b) :
    timesDirected (processCell isHalo false threshold cutoff dir cell view) a b = if isHalo a then 0 else 1 := by
  have he : cell.particles.isEmpty = false := by
    rw [List.isEmpty_eq_false_iff]; exact List.ne_nil_of_mem ha
  unfold processCell
  rw [he, processCellAoS_eq]
  simp only [Bool.false_eq_true, if_false]
  split
  · rename_i ho
    have : isHalo a = true := by
      by_contra hc
      have := hf a ha (by simpa using hc)
      simp [this] at ho
    simp [this, timesDirected]
  · rw [single_directed hab (fun t ht => cellPairs_ne hnd hv ht), cellPairs_eq_one hab hnd hv ha hb h]

/-- Without sorting, every pair of particles of a cell of which one is not a halo particle is processed once. -/
theorem C17_cell_newton3_exactly_once {cell : PCell P} {view : List (Rat × P)} {a b : P} (hnd : cell.particles.Nodup)
    (hv : IsSortedView pos dir cell.particles view) (hf : FlagOk isHalo cell) (ha : a ∈ cell.particles)
    (hb : b ∈ cell.particles) (hab : a ≠ b) (hh : isHalo a = false ∨ isHalo b = false)
    (hs : cell.particles.length ≤ threshold) :
    timesUnordered (processCell isHalo true threshold cutoff dir cell view) a b = 1 :=
  cell_newton3 hnd hv hf ha hb hab hh (.inl hs)

/-- Without Newton 3 and without sorting, every particle that is not a halo particle is the first partner of every other
particle of its cell exactly once; halo particles never are. -/
theorem C17_cell_no_newton3_exactly_once_per_direction {cell : PCell P} {view : List (Rat × P)} {a b : P}
    (hnd : cell.particles.Nodup) (hv : IsSortedView pos dir cell.particles view) (hf : FlagOk isHalo cell)
    (ha : a ∈ cell.particles) (hb : b ∈ cell.particles) (hab : a ≠ b) (hs : cell.particles.length ≤ threshold) :
    timesDirected (processCell isHalo false threshold cutoff dir cell view) a b = if isHalo a then 0 else 1 :=
  cell_directed hnd hv hf ha hb hab (.inl hs)

/-- With or without sorting, no pair is processed twice, in either mode. -/
theorem C17_cell_at_most_once {cell : PCell P} {view : List (Rat × P)} {a b : P} (hnd : cell.particles.Nodup)
    (hv : IsSortedView pos dir cell.particles view) (hab : a ≠ b) :
    timesUnordered (processCell isHalo true threshold cutoff dir cell view) a b ≤ 1 ∧
    timesDirected (processCell isHalo false threshold cutoff dir cell view) a b ≤ 1 := by
  unfold processCell
  rw [processCellAoS_eq, processCellAoS_eq]
  have h1 := cellPairs_le_one (threshold := threshold) (cutoff := cutoff) hab hnd hv
  constructor
  · split
    · simp [timesUnordered]
    · split
      · simp [timesUnordered]
      · rw [single_unordered]; exact h1
  · split
    · simp [timesDirected]
    · split
      · simp [timesDirected]
      · rw [single_directed hab (fun t ht => cellPairs_ne hnd hv ht)]
        split
        · omega
        · exact h1

omit [DecidableEq P] in
/-- Only different particles of the cell are handed to the functor, with the Newton-3 flag of the cell functor. -/
theorem C17_cell_only_own_particles {cell : PCell P} {view : List (Rat × P)} {newton3 : Bool} (hnd : cell.particles.Nodup)
    (hv : IsSortedView pos dir cell.particles view) {c : PairCall P}
    (hc : c ∈ processCell isHalo newton3 threshold cutoff dir cell view) :
    c.p ∈ cell.particles ∧ c.q ∈ cell.particles ∧ c.p ≠ c.q ∧ c.newton3 = newton3 := by
  unfold processCell at hc
  split at hc
  · cases hc
  split at hc
  · cases hc
  rw [processCellAoS_eq, List.mem_flatMap] at hc
  obtain ⟨t, ht, hc⟩ := hc
  obtain ⟨m1, m2⟩ := mem_cellPairs hv ht
  have hne := cellPairs_ne hnd hv ht
  cases newton3
  · simp only [interactParticles, Bool.false_eq_true, if_false, List.mem_append] at hc
    rcases hc with hc | hc <;> split at hc <;> simp at hc <;> subst hc
    · exact ⟨m1, m2, hne, rfl⟩
    · exact ⟨m2, m1, hne.symm, rfl⟩
  · simp [interactParticles] at hc
    subst hc
    exact ⟨m1, m2, hne, rfl⟩

/-- What both C17 and C18 say about two cells with Newton 3. -/
theorem pair_newton3 {cell1 cell2 : PCell P} {view1 view2 : List (Rat × P)} {a b : P} (bidirectional : Bool)
    (hnd1 : cell1.particles.Nodup) (hnd2 : cell2.particles.Nodup) (hdis : ∀ p ∈ cell1.particles, p ∉ cell2.particles)
    (hv1 : IsSortedView pos dir cell1.particles view1) (hv2 : IsSortedView pos dir cell2.particles view2)
    (hf1 : FlagOk isHalo cell1) (hf2 : FlagOk isHalo cell2)
    (ha : a ∈ cell1.particles) (hb : b ∈ cell2.particles) (hh : isHalo a = false ∨ isHalo b = false)
    (h : cell1.particles.length + cell2.particles.length ≤ threshold ∨ dir = ⟨0, 0, 0⟩ ∨
      (Near pos cutoff a b ∧ NotBehind pos dir cutoff cell1.particles cell2.particles)) :
    timesUnordered (processCellPair true bidirectional threshold cutoff dir cell1 cell2 view1 view2) a b = 1 := by
  have he1 : cell1.particles.isEmpty = false := by
    rw [List.isEmpty_eq_false_iff]; exact List.ne_nil_of_mem ha
  have he2 : cell2.particles.isEmpty = false := by
    rw [List.isEmpty_eq_false_iff]; exact List.ne_nil_of_mem hb
  have ho : ¬ (cell1.hasOwned = false ∧ cell2.hasOwned = false) := by
    rintro ⟨o1, o2⟩
    rcases hh with hh | hh
    · rw [hf1 a ha hh] at o1; cases o1
    · rw [hf2 b hb hh] at o2; cases o2
  have hd : ∀ t ∈ crossPairs threshold cutoff dir cell1.particles cell2.particles view1 view2,
      ¬ (t.1 = b ∧ t.2 = a) := fun t ht hc => hdis b (hc.1 ▸ (mem_crossPairs hv1 hv2 ht).1) hb
  unfold processCellPair
  rw [he1, he2, if_neg (by simp), if_neg (by simpa using ho), processCellPairAoS_eq,
    cross_unordered bidirectional hd]
  exact crossPairs_eq_one hnd1 hnd2 hv1 hv2 ha hb h

/-- What both C17 and C18 say about two cells without Newton 3. -/
theorem pair_directed {cell1 cell2 : PCell P} {view1 view2 : List (Rat × P)} {a b : P} (bidirectional : Bool)
    (hnd1 : cell1.particles.Nodup) (hnd2 : cell2.particles.Nodup) (hdis : ∀ p ∈ cell1.particles, p ∉ cell2.particles)
    (hv1 : IsSortedView pos dir cell1.particles view1) (hv2 : IsSortedView pos dir cell2.particles view2)
    (hf1 : FlagOk isHalo cell1) (hf2 : FlagOk isHalo cell2)
    (ha : a ∈ cell1.particles) (hb : b ∈ cell2.particles)
    (h : cell1.particles.length + cell2.particles.length ≤ threshold ∨ dir = ⟨0, 0, 0⟩ ∨
      (Near pos cutoff a b ∧ NotBehind pos dir cutoff cell1.particles cell2.particles)) :
    (isHalo a = false →
      timesDirected (processCellPair false bidirectional threshold cutoff dir cell1 cell2 view1 view2) a b = 1) ∧
    (isHalo b = false →
      timesDirected (processCellPair false bidirectional threshold cutoff dir cell1 cell2 view1 view2) b a =
        if bidirectional then 1 else 0) := by
  have he1 : cell1.particles.isEmpty = false := by
    rw [List.isEmpty_eq_false_iff]; exact List.ne_nil_of_mem ha
  have he2 : cell2.particles.isEmpty = false := by
    rw [List.isEmpty_eq_false_iff]; exact List.ne_nil_of_mem hb
  have hd : ∀ t ∈ crossPairs threshold cutoff dir cell1.particles cell2.particles view1 view2,
      ¬ (t.1 = b ∧ t.2 = a) := fun t ht hc => hdis b (hc.1 ▸ (mem_crossPairs hv1 hv2 ht).1) hb
  have h1 := crossPairs_eq_one hnd1 hnd2 hv1 hv2 ha hb h
  unfold processCellPair
  rw [he1, he2, if_neg (by simp)]
  constructor
  · intro hh
    rw [if_neg (by simp [hf1 a ha hh]), processCellPairAoS_eq, cross_directed bidirectional hd]
    exact h1
  · intro hh
    cases bidirectional
    · split
      · rfl
      · rw [processCellPairAoS_eq, cross_directed_rev false hd]; rfl
    · rw [if_neg (by simp [hf2 b hb hh]), processCellPairAoS_eq, cross_directed_rev true hd]
      exact h1

/-- Two cells, Newton 3, no sorting (too few particles or no sorting direction): every pair of a particle of each cell, not
both halo, is processed once. -/
theorem C17_pair_newton3_exactly_once {cell1 cell2 : PCell P} {view1 view2 : List (Rat × P)} {a b : P} (bidirectional : Bool)
    (hnd1 : cell1.particles.Nodup) (hnd2 : cell2.particles.Nodup) (hdis : ∀ p ∈ cell1.particles, p ∉ cell2.particles)
    (hv1 : IsSortedView pos dir cell1.particles view1) (hv2 : IsSortedView pos dir cell2.particles view2)
    (hf1 : FlagOk isHalo cell1) (hf2 : FlagOk isHalo cell2)
    (ha : a ∈ cell1.particles) (hb : b ∈ cell2.particles) (hh : isHalo a = false ∨ isHalo b = false)
    (hs : cell1.particles.length + cell2.particles.length ≤ threshold ∨ dir = ⟨0, 0, 0⟩) :
    timesUnordered (processCellPair true bidirectional threshold cutoff dir cell1 cell2 view1 view2) a b = 1 :=
  pair_newton3 bidirectional hnd1 hnd2 hdis hv1 hv2 hf1 hf2 ha hb hh (hs.imp_right .inl)

/-- Two cells, no Newton 3, no sorting: non-halo particles of the first cell are first partner of every particle of the
second exactly once; non-halo particles of the second cell exactly once if and only if the processing is bidirectional. -/
theorem C17_pair_no_newton3_exactly_once_per_direction {cell1 cell2 : PCell P} {view1 view2 : List (Rat × P)} {a b : P}
    (bidirectional : Bool)
    (hnd1 : cell1.particles.Nodup) (hnd2 : cell2.particles.Nodup) (hdis : ∀ p ∈ cell1.particles, p ∉ cell2.particles)
    (hv1 : IsSortedView pos dir cell1.particles view1) (hv2 : IsSortedView pos dir cell2.particles view2)
    (hf1 : FlagOk isHalo cell1) (hf2 : FlagOk isHalo cell2)
    (ha : a ∈ cell1.particles) (hb : b ∈ cell2.particles)
    (hs : cell1.particles.length + cell2.particles.length ≤ threshold ∨ dir = ⟨0, 0, 0⟩) :
    (isHalo a = false →
      timesDirected (processCellPair false bidirectional threshold cutoff dir cell1 cell2 view1 view2) a b = 1) ∧
    (isHalo b = false →
      timesDirected (processCellPair false bidirectional threshold cutoff dir cell1 cell2 view1 view2) b a =
        if bidirectional then 1 else 0) :=
  pair_directed bidirectional hnd1 hnd2 hdis hv1 hv2 hf1 hf2 ha hb (hs.imp_right .inl)

/-- With or without sorting, no pair of the two cells is processed twice. -/
theorem C17_pair_at_most_once {cell1 cell2 : PCell P} {view1 view2 : List (Rat × P)} {a b : P} (bidirectional : Bool)
    (hnd1 : cell1.particles.Nodup) (hnd2 : cell2.particles.Nodup) (hdis : ∀ p ∈ cell1.particles, p ∉ cell2.particles)
    (hv1 : IsSortedView pos dir cell1.particles view1) (hv2 : IsSortedView pos dir cell2.particles view2)
    (hb : b ∈ cell2.particles) :
    timesUnordered (processCellPair true bidirectional threshold cutoff dir cell1 cell2 view1 view2) a b ≤ 1 ∧
    timesDirected (processCellPair false bidirectional threshold cutoff dir cell1 cell2 view1 view2) a b ≤ 1 ∧
    timesDirected (processCellPair false bidirectional threshold cutoff dir cell1 cell2 view1 view2) b a ≤ 1 := by
  have hd : ∀ t ∈ crossPairs threshold cutoff dir cell1.particles cell2.particles view1 view2,
      ¬ (t.1 = b ∧ t.2 = a) := fun t ht hc => hdis b (hc.1 ▸ (mem_crossPairs hv1 hv2 ht).1) hb
  have h1 := crossPairs_le_one (threshold := threshold) (cutoff := cutoff) (a := a) (b := b) hnd1 hnd2 hv1 hv2
  unfold processCellPair
  refine ⟨?_, ?_, ?_⟩
  · split
    · simp [timesUnordered]
    · split
      · simp [timesUnordered]
      · rw [processCellPairAoS_eq, cross_unordered bidirectional hd]; exact h1
  · split
    · simp [timesDirected]
    · split
      · simp [timesDirected]
      · rw [processCellPairAoS_eq, cross_directed bidirectional hd]; exact h1
  · split
    · simp [timesDirected]
    · split
      · simp [timesDirected]
      · rw [processCellPairAoS_eq, cross_directed_rev bidirectional hd]
        split
        · exact h1
        · omega

omit [DecidableEq P] in
/-- Only pairs of a particle of one cell and a particle of the other are handed to the functor; without Newton 3 and
without bidirectional processing only particles of the first cell are updated. -/
theorem C17_pair_only_own_particles {cell1 cell2 : PCell P} {view1 view2 : List (Rat × P)} {newton3 bidirectional : Bool}
    (hv1 : IsSortedView pos dir cell1.particles view1) (hv2 : IsSortedView pos dir cell2.particles view2) {c : PairCall P}
    (hc : c ∈ processCellPair newton3 bidirectional threshold cutoff dir cell1 cell2 view1 view2) :
    c.newton3 = newton3 ∧ ((c.p ∈ cell1.particles ∧ c.q ∈ cell2.particles) ∨
      (newton3 = false ∧ bidirectional = true ∧ c.p ∈ cell2.particles ∧ c.q ∈ cell1.particles)) := by
  unfold processCellPair at hc
  split at hc
  · cases hc
  split at hc
  · cases hc
  rw [processCellPairAoS_eq, List.mem_flatMap] at hc
  obtain ⟨t, ht, hc⟩ := hc
  obtain ⟨m1, m2⟩ := mem_crossPairs hv1 hv2 ht
  cases newton3 <;> cases bidirectional <;> simp [interactCross] at hc
  · subst hc; exact ⟨rfl, .inl ⟨m1, m2⟩⟩
  · rcases hc with rfl | rfl
    · exact ⟨rfl, .inl ⟨m1, m2⟩⟩
    · exact ⟨rfl, .inr ⟨rfl, rfl, m2, m1⟩⟩
  · subst hc; exact ⟨rfl, .inl ⟨m1, m2⟩⟩
  · subst hc; exact ⟨rfl, .inl ⟨m1, m2⟩⟩

/-! Non-vacuity: particles `0 … 3`, particle 3 is halo; the particle number is also its x-coordinate. -/

private def exPos (n : Nat) : V3 Rat := ⟨n, 0, 0⟩

private def exV (l : List Nat) : List (Rat × Nat) := l.map fun (p : Nat) => ((p : Rat), p)

private theorem exView (l : List Nat) (h : l.Pairwise (· ≤ ·)) : IsSortedView exPos ⟨1, 0, 0⟩ l (exV l) := by
  unfold exV
  refine ⟨?_, ?_⟩
  · have : (fun p : Nat => ((exPos p).dot ⟨1, 0, 0⟩, p)) = fun p : Nat => ((p : Rat), p) := by
      funext p; simp [exPos, V3.dot]
    rw [this]
  · rw [List.pairwise_map]
    exact h.imp (fun h => by simp only; exact_mod_cast h)

example : timesUnordered (processCell (· == 3) true 8 1 ⟨1, 0, 0⟩ ⟨[0, 1, 2, 3], true⟩ (exV [0, 1, 2, 3])) 1 3 = 1 :=
  C17_cell_newton3_exactly_once (pos := exPos) (by decide) (exView [0, 1, 2, 3] (by decide)) (fun _ _ _ => rfl) (by decide)
    (by decide) (by decide) (by decide) (by decide)

example : timesDirected (processCell (· == 3) false 8 1 ⟨1, 0, 0⟩ ⟨[0, 1, 2, 3], true⟩ (exV [0, 1, 2, 3])) 1 3 = 1 :=
  C17_cell_no_newton3_exactly_once_per_direction (pos := exPos) (by decide) (exView [0, 1, 2, 3] (by decide)) (fun _ _ _ => rfl)
    (by decide) (by decide) (by decide) (by decide)

example : timesDirected (processCellPair false true 8 1 ⟨1, 0, 0⟩ ⟨[0, 1], true⟩ ⟨[2, 3], true⟩
    (exV [0, 1]) (exV [2, 3])) 2 0 = 1 :=
  (C17_pair_no_newton3_exactly_once_per_direction (pos := exPos) (isHalo := (· == 3)) true (by decide) (by decide) (by decide)
    (exView [0, 1] (by decide)) (exView [2, 3] (by decide)) (fun _ _ _ => rfl) (fun _ _ _ => rfl) (by decide)
    (by decide) (by decide)).2 rfl

end Verif
