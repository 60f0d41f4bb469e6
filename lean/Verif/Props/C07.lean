import Verif.Lemmas.CellGeometry
import Verif.Lemmas.LCC08
/-!
# C07 — lc_c08 processes every pair of close cells exactly once

`(lcC08 dims cl il).flatten.flatten` is the list of all cell functor calls one `traverseParticles` makes; `dims` is
the number of cells per dimension including halo, `cl` the cell size, `il` the interaction length, `hw` the number of
halo cells per side. `timesPair`/`timesSelf` (Spec/CellPairs.lean) count how often an unordered pair / a cell is
handed to the cell functor. The hypotheses `overlap ≤ hw` are what `CellBlock3D::rebuild` guarantees (see C05).
-/
namespace Verif
open Spec

theorem timesPair_c08 (dims : V3 Nat) (cl : V3 Rat) (il : Rat) {i j : Int} (hij : i ≠ j) :
    timesPair (lcC08 dims cl il).flatten.flatten i j =
      (c08Q dims cl il).countP (fun q => decide
        ((((threeToOneD q.1 dims : Int) + (c08Offset dims cl il q.2).1 = i ∧
           (threeToOneD q.1 dims : Int) + (c08Offset dims cl il q.2).2.1 = j)) ∨
         (((threeToOneD q.1 dims : Int) + (c08Offset dims cl il q.2).1 = j ∧
           (threeToOneD q.1 dims : Int) + (c08Offset dims cl il q.2).2.1 = i)))) := by
  unfold timesPair
  rw [lcC08_flatten, List.countP_map]
  apply List.countP_congr
  intro q _
  simp only [Function.comp, cellOpOf]
  split_ifs with h
  · simp only [decide_eq_true_eq, false_iff]
    rintro (⟨h1, h2⟩ | ⟨h1, h2⟩) <;> omega
  · simp only [decide_eq_true_eq]

/-- Every pair of different cells that are neighbours within the overlap, whose boxes come within the interaction
length of each other and of which at least one is not a halo cell, is processed exactly once. -/
theorem C07_lc_c08_pair_exactly_once (dims : V3 Nat) (cl : V3 Rat) (il : Rat) (hw : Nat)
    (hil : 0 < il) (hx : 0 < cl.x) (hy : 0 < cl.y) (hz : 0 < cl.z)
    (hwx : (overlapOf il cl).x ≤ hw) (hwy : (overlapOf il cl).y ≤ hw) (hwz : (overlapOf il cl).z ≤ hw)
    (a b : V3 Nat) (ha : InGrid a dims) (hb : InGrid b dims) (hab : a ≠ b)
    (hov : WithinOverlap (overlapOf il cl).toNat a b) (hgap : cellGapSq cl a b ≤ il * il)
    (hh : ¬ (IsHalo hw dims a ∧ IsHalo hw dims b)) :
    timesPair (lcC08 dims cl il).flatten.flatten (threeToOneD a dims) (threeToOneD b dims) = 1 := by
  have hp : C08Pos cl il := ⟨hil, hx, hy, hz⟩
  have hne : (threeToOneD a dims : Int) ≠ threeToOneD b dims := fun h => hab (flat_inj ha hb (by exact_mod_cast h))
  obtain ⟨q, hq, hm⟩ := c08_exists hp hwx hwy hwz ha hb hov hgap hh
  rw [timesPair_c08 dims cl il hne]
  refine countP_eq_one_of_unique (nodup_basePairs (nodup_colorTraversal _ _ _)
    (nodup_c08Indices cl il)) hq ?_ ?_
  · obtain ⟨c, x, y, z, d⟩ := q
    simp only [decide_eq_true_eq]
    rw [c08Match_iff hp hq ha hb, c08Match_iff hp hq hb ha]; exact hm
  · intro r hr hpr
    obtain ⟨c, x, y, z, d⟩ := r
    simp only [decide_eq_true_eq] at hpr
    rw [c08Match_iff hp hr ha hb, c08Match_iff hp hr hb ha] at hpr
    rcases hpr with h1 | h1 <;> rcases hm with h2 | h2
    · exact c08Match_unique hp hr hq h1 h2
    · exact absurd (c08Match_antisymm hp hr hq h1 h2) hab
    · exact absurd (c08Match_antisymm hp hq hr h2 h1) hab
    · exact c08Match_unique hp hr hq h1 h2

/-- No pair of cells is ever processed more than once (halo cells included). -/
theorem C07_lc_c08_pair_at_most_once (dims : V3 Nat) (cl : V3 Rat) (il : Rat)
    (hil : 0 < il) (hx : 0 < cl.x) (hy : 0 < cl.y) (hz : 0 < cl.z)
    (a b : V3 Nat) (ha : InGrid a dims) (hb : InGrid b dims) (hab : a ≠ b) :
    timesPair (lcC08 dims cl il).flatten.flatten (threeToOneD a dims) (threeToOneD b dims) ≤ 1 := by
  have hp : C08Pos cl il := ⟨hil, hx, hy, hz⟩
  have hne : (threeToOneD a dims : Int) ≠ threeToOneD b dims := fun h => hab (flat_inj ha hb (by exact_mod_cast h))
  rw [timesPair_c08 dims cl il hne]
  refine countP_le_one_of_unique (nodup_basePairs (nodup_colorTraversal _ _ _)
    (nodup_c08Indices cl il)) ?_
  intro r hr q hq hpr hpq
  obtain ⟨c, x, y, z, d⟩ := r
  obtain ⟨c', x', y', z', d'⟩ := q
  simp only [decide_eq_true_eq] at hpr hpq
  rw [c08Match_iff hp hr ha hb, c08Match_iff hp hr hb ha] at hpr
  rw [c08Match_iff hp hq ha hb, c08Match_iff hp hq hb ha] at hpq
  rcases hpr with h1 | h1 <;> rcases hpq with h2 | h2
  · exact c08Match_unique hp hr hq h1 h2
  · exact absurd (c08Match_antisymm hp hr hq h1 h2) hab
  · exact absurd (c08Match_antisymm hp hq hr h2 h1) hab
  · exact c08Match_unique hp hr hq h1 h2

/-- Every cell that is not a halo cell is processed with itself exactly once. -/
theorem C07_lc_c08_self_exactly_once (dims : V3 Nat) (cl : V3 Rat) (il : Rat) (hw : Nat)
    (hil : 0 < il) (hx : 0 < cl.x) (hy : 0 < cl.y) (hz : 0 < cl.z)
    (hwx : (overlapOf il cl).x ≤ hw) (hwy : (overlapOf il cl).y ≤ hw) (hwz : (overlapOf il cl).z ≤ hw)
    (a : V3 Nat) (ha : InGrid a dims) (hh : ¬ IsHalo hw dims a) :
    timesSelf (lcC08 dims cl il).flatten.flatten (threeToOneD a dims) = 1 := by
  have hp : C08Pos cl il := ⟨hil, hx, hy, hz⟩
  obtain ⟨q, hq, hm⟩ := c08_exists (A := a) (B := a) hp hwx hwy hwz ha ha
    (by simp [WithinOverlap, axisDist]) (by simp [cellGapSq, axisGap, axisDist]; positivity) (by tauto)
  have hm : c08Match (overlapOf il cl) q a a := by tauto
  unfold timesSelf
  rw [lcC08_flatten, List.countP_map]
  refine countP_eq_one_of_unique (nodup_basePairs (nodup_colorTraversal _ _ _)
    (nodup_c08Indices cl il)) hq ?_ ?_
  · obtain ⟨c, x, y, z, d⟩ := q
    obtain ⟨e1, e2⟩ := (c08Match_iff hp hq ha ha).2 hm
    simp only [Function.comp, cellOpOf, e1, e2, if_true, decide_true]
  · intro r hr hpr
    obtain ⟨c, x, y, z, d⟩ := r
    simp only [Function.comp, cellOpOf] at hpr
    split_ifs at hpr with h
    simp only [decide_eq_true_eq] at hpr
    have := (c08Match_iff hp hr ha ha).1 ⟨hpr, by rw [← h]; exact hpr⟩
    exact c08Match_unique hp hr hq this hm

/-- No call ever leaves the cell array, and a pair call always gets two different cells of the grid. -/
theorem C07_lc_c08_valid_cells (dims : V3 Nat) (cl : V3 Rat) (il : Rat)
    (hil : 0 < il) (hx : 0 < cl.x) (hy : 0 < cl.y) (hz : 0 < cl.z)
    (op : CellOp) (hop : op ∈ (lcC08 dims cl il).flatten.flatten) :
    (∀ i ∈ touched op, 0 ≤ i ∧ i < numCells dims) ∧ (touched op).Nodup := by
  have hp : C08Pos cl il := ⟨hil, hx, hy, hz⟩
  rw [lcC08_flatten, List.mem_map] at hop
  obtain ⟨⟨b, x, y, z, d⟩, hq, rfl⟩ := hop
  obtain ⟨h1, h2, h3, h4, h5, h6⟩ := c08Q_bounds hp hq
  obtain ⟨e1, e2⟩ := c08_cells dims cl il b x y z d
  obtain ⟨A, hA, -, -, -, fA⟩ := flatInt_bounds h1 h2 h3
  obtain ⟨B, hB, -, -, -, fB⟩ := flatInt_bounds h4 h5 h6
  rw [fA] at e1; rw [fB] at e2
  have bA := flat_lt hA
  have bB := flat_lt hB
  simp only [cellOpOf, e1, e2]
  split_ifs with h
  · simp only [touched, List.mem_singleton, List.nodup_cons, List.not_mem_nil, not_false_eq_true, List.nodup_nil,
      and_self, and_true]
    rintro i rfl; omega
  · simp only [touched, List.mem_cons, List.not_mem_nil, or_false, List.nodup_cons, not_false_eq_true,
      List.nodup_nil, and_true]
    refine ⟨?_, h⟩
    rintro i (rfl | rfl) <;> omega

-- a 4×4×5 grid of unit cells, interaction length 1, one halo layer: the pair (1,1,1),(2,2,2) meets all hypotheses
example : timesPair (lcC08 ⟨4, 4, 5⟩ ⟨1, 1, 1⟩ 1).flatten.flatten
    (threeToOneD ⟨1, 1, 1⟩ ⟨4, 4, 5⟩) (threeToOneD ⟨2, 2, 2⟩ ⟨4, 4, 5⟩) = 1 :=
  C07_lc_c08_pair_exactly_once ⟨4, 4, 5⟩ ⟨1, 1, 1⟩ 1 1 (by norm_num) (by norm_num) (by norm_num) (by norm_num)
    (by simp [overlapOf]) (by simp [overlapOf]) (by simp [overlapOf]) ⟨1, 1, 1⟩ ⟨2, 2, 2⟩
    (by simp [InGrid]) (by simp [InGrid]) (by decide) (by simp [WithinOverlap, overlapOf, axisDist, V3.toNat])
    (by simp [cellGapSq, axisGap, axisDist]) (by simp [IsHalo])

/-- End to end, in terms of positions: for every valid box, interaction length and cell size factor, any two positions
within the interaction length of which at least one lies in the box are handled exactly once: by one pair call if
they are stored in different cells, by one self call otherwise. -/
theorem C07_lc_c08_positions (bMin bMax : V3 Rat) (il csf : Rat) (hbox : GoodBox bMin bMax il csf) (p q : V3 Rat)
    (hpq : distSq p q ≤ il * il) (hin : InBox p bMin bMax ∨ InBox q bMin bMax) :
    let b := CellBlock.rebuild id bMin bMax il csf
    let ops := (lcC08 b.dims b.cellLength il).flatten.flatten
    let cp := b.indexOfPosition id p
    let cq := b.indexOfPosition id q
    (cp ≠ cq → timesPair ops (threeToOneD cp b.dims) (threeToOneD cq b.dims) = 1) ∧
    (cp = cq → timesSelf ops (threeToOneD cp b.dims) = 1) := by
  intro b ops cp cq
  obtain ⟨hx, hy, hz⟩ := hbox.cl_pos
  obtain ⟨ox, oy, oz⟩ := hbox.overlap_le
  obtain ⟨h1, h2⟩ := hbox.close hpq
  constructor
  · intro hne
    refine C07_lc_c08_pair_exactly_once _ _ _ (cellsPerInteractionLength id csf) hbox.ilPos hx hy hz ox oy oz _ _
      (hbox.inGrid p) (hbox.inGrid q) hne h1 h2 ?_
    rintro ⟨hp, hq⟩
    rcases hin with h | h
    · exact hbox.not_halo h hp
    · exact hbox.not_halo h hq
  · intro he
    refine C07_lc_c08_self_exactly_once _ _ _ (cellsPerInteractionLength id csf) hbox.ilPos hx hy hz ox oy oz _
      (hbox.inGrid p) ?_
    rcases hin with h | h
    · exact hbox.not_halo h
    · have := hbox.not_halo h
      change ¬ IsHalo _ _ cq at this
      rw [← he] at this; exact this

end Verif
