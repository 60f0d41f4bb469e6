import Verif.Lemmas.CellGeometry
import Verif.Lemmas.LCC18
/-!
# C09 — lc_c18 processes every pair of close cells exactly once

Vocabulary as in C07. `2 * overlap + 1 ≤ dims` and `overlap ≤ hw` are guaranteed by `CellBlock3D::rebuild` (C05).
-/
namespace Verif
open Spec

/-- Every pair of different cells within the overlap whose boxes come within the interaction length, not both halo
cells, is processed exactly once. -/
theorem C09_lc_c18_pair_exactly_once (dims : V3 Nat) (cl : V3 Rat) (il : Rat) (hw : Nat)
    (hil : 0 < il) (hx : 0 < cl.x) (hy : 0 < cl.y) (hz : 0 < cl.z) (hwz : (overlapOf il cl).z ≤ hw)
    (hdx : 2 * (overlapOf il cl).x + 1 ≤ dims.x) (hdy : 2 * (overlapOf il cl).y + 1 ≤ dims.y)
    (hdz : 2 * (overlapOf il cl).z + 1 ≤ dims.z)
    (a b : V3 Nat) (ha : InGrid a dims) (hb : InGrid b dims) (hab : a ≠ b)
    (hov : WithinOverlap (overlapOf il cl).toNat a b) (hgap : cellGapSq cl a b ≤ il * il)
    (hh : ¬ (IsHalo hw dims a ∧ IsHalo hw dims b)) :
    timesPair (lcC18 dims cl il).flatten.flatten (threeToOneD a dims) (threeToOneD b dims) = 1 := by
  have h : C18Dims dims cl il := ⟨⟨hil, hx, hy, hz⟩, hdx, hdy, hdz⟩
  refine (c18_coded h).timesPair_one ha hb hab ?_ (c18_unique h) (c18_anti h)
  rcases Nat.le_total (threeToOneD a dims) (threeToOneD b dims) with hle | hle
  · obtain ⟨q, hq, e1, e2⟩ := c18_exists_ordered h hwz ha hb hle hov hgap hh
    exact ⟨q, hq, Or.inl ⟨e1, e2⟩⟩
  · have hov' : WithinOverlap (overlapOf il cl).toNat b a := by
      unfold WithinOverlap at *
      rw [axisDist_comm b.x, axisDist_comm b.y, axisDist_comm b.z]; exact hov
    rw [cellGapSq_comm] at hgap
    obtain ⟨q, hq, e1, e2⟩ := c18_exists_ordered h hwz hb ha hle hov' hgap (fun hh' => hh ⟨hh'.2, hh'.1⟩)
    exact ⟨q, hq, Or.inr ⟨e1, e2⟩⟩

/-- No pair of cells is ever processed more than once. -/
theorem C09_lc_c18_pair_at_most_once (dims : V3 Nat) (cl : V3 Rat) (il : Rat)
    (hil : 0 < il) (hx : 0 < cl.x) (hy : 0 < cl.y) (hz : 0 < cl.z)
    (hdx : 2 * (overlapOf il cl).x + 1 ≤ dims.x) (hdy : 2 * (overlapOf il cl).y + 1 ≤ dims.y)
    (hdz : 2 * (overlapOf il cl).z + 1 ≤ dims.z)
    (a b : V3 Nat) (ha : InGrid a dims) (hb : InGrid b dims) (hab : a ≠ b) :
    timesPair (lcC18 dims cl il).flatten.flatten (threeToOneD a dims) (threeToOneD b dims) ≤ 1 := by
  have h : C18Dims dims cl il := ⟨⟨hil, hx, hy, hz⟩, hdx, hdy, hdz⟩
  exact (c18_coded h).timesPair_le_one ha hb hab (c18_unique h) (c18_anti h)

/-- Every cell that is not a halo cell is processed with itself exactly once. -/
theorem C09_lc_c18_self_exactly_once (dims : V3 Nat) (cl : V3 Rat) (il : Rat) (hw : Nat)
    (hil : 0 < il) (hx : 0 < cl.x) (hy : 0 < cl.y) (hz : 0 < cl.z) (hwz : (overlapOf il cl).z ≤ hw)
    (hdx : 2 * (overlapOf il cl).x + 1 ≤ dims.x) (hdy : 2 * (overlapOf il cl).y + 1 ≤ dims.y)
    (hdz : 2 * (overlapOf il cl).z + 1 ≤ dims.z)
    (a : V3 Nat) (ha : InGrid a dims) (hh : ¬ IsHalo hw dims a) :
    timesSelf (lcC18 dims cl il).flatten.flatten (threeToOneD a dims) = 1 := by
  have h : C18Dims dims cl il := ⟨⟨hil, hx, hy, hz⟩, hdx, hdy, hdz⟩
  refine (c18_coded h).timesSelf_one ha ?_ (c18_unique h)
  exact c18_exists_ordered h hwz ha ha (Nat.le_refl _) (by simp [WithinOverlap, axisDist])
    (by simp [cellGapSq, axisGap, axisDist]; positivity) (by tauto)

/-- No call leaves the cell array, and a pair call gets two different cells. -/
theorem C09_lc_c18_valid_cells (dims : V3 Nat) (cl : V3 Rat) (il : Rat)
    (hil : 0 < il) (hx : 0 < cl.x) (hy : 0 < cl.y) (hz : 0 < cl.z)
    (hdx : 2 * (overlapOf il cl).x + 1 ≤ dims.x) (hdy : 2 * (overlapOf il cl).y + 1 ≤ dims.y)
    (hdz : 2 * (overlapOf il cl).z + 1 ≤ dims.z)
    (op : CellOp) (hop : op ∈ (lcC18 dims cl il).flatten.flatten) :
    (∀ i ∈ touched op, 0 ≤ i ∧ i < numCells dims) ∧ (touched op).Nodup :=
  (c18_coded ⟨⟨hil, hx, hy, hz⟩, hdx, hdy, hdz⟩).valid hop

/-- The lookup into the table of special cases never leaves the table (`2 * overlap + 1` entries per axis). -/
theorem C09_lc_c18_table_index_valid (dim : Nat) (ov : Int) (pos : Nat) (hov : 1 ≤ ov) (hd : 2 * ov + 1 ≤ dim)
    (hp : pos < dim) : c18GetIndex pos dim ov.toNat < 2 * ov.toNat + 1 :=
  c18GetIndex_lt hov hd hp

-- a 4×4×5 grid of unit cells, interaction length 1, one halo layer
example : timesPair (lcC18 ⟨4, 4, 5⟩ ⟨1, 1, 1⟩ 1).flatten.flatten
    (threeToOneD ⟨1, 1, 1⟩ ⟨4, 4, 5⟩) (threeToOneD ⟨0, 2, 2⟩ ⟨4, 4, 5⟩) = 1 :=
  C09_lc_c18_pair_exactly_once ⟨4, 4, 5⟩ ⟨1, 1, 1⟩ 1 1 (by norm_num) (by norm_num) (by norm_num) (by norm_num)
    (by simp [overlapOf]) (by simp [overlapOf]) (by simp [overlapOf]) (by simp [overlapOf]) ⟨1, 1, 1⟩ ⟨0, 2, 2⟩
    (by simp [InGrid]) (by simp [InGrid]) (by decide) (by simp [WithinOverlap, overlapOf, axisDist, V3.toNat])
    (by simp [cellGapSq, axisGap, axisDist]) (by simp [IsHalo])

/-- End to end, in terms of positions (as `C07_lc_c08_positions`). -/
theorem C09_lc_c18_positions (bMin bMax : V3 Rat) (il csf : Rat) (hbox : GoodBox bMin bMax il csf) (p q : V3 Rat)
    (hpq : distSq p q ≤ il * il) (hin : InBox p bMin bMax ∨ InBox q bMin bMax) :
    let b := CellBlock.rebuild id bMin bMax il csf
    let ops := (lcC18 b.dims b.cellLength il).flatten.flatten
    let cp := b.indexOfPosition id p
    let cq := b.indexOfPosition id q
    (cp ≠ cq → timesPair ops (threeToOneD cp b.dims) (threeToOneD cq b.dims) = 1) ∧
    (cp = cq → timesSelf ops (threeToOneD cp b.dims) = 1) := by
  intro b ops cp cq
  obtain ⟨hx, hy, hz⟩ := hbox.cl_pos
  obtain ⟨ox, oy, oz⟩ := hbox.overlap_le
  obtain ⟨dx, dy, dz⟩ : 2 * cellsPerInteractionLength id csf + 1 ≤ b.dims.x ∧
      2 * cellsPerInteractionLength id csf + 1 ≤ b.dims.y ∧ 2 * cellsPerInteractionLength id csf + 1 ≤ b.dims.z := hbox.dims_ge
  obtain ⟨h1, h2⟩ := hbox.close hpq
  constructor
  · intro hne
    refine C09_lc_c18_pair_exactly_once _ _ _ (cellsPerInteractionLength id csf) hbox.ilPos hx hy hz oz
      (by omega) (by omega) (by omega) _ _ (hbox.inGrid p) (hbox.inGrid q) hne h1 h2 ?_
    rintro ⟨hp, hq⟩
    rcases hin with h | h
    · exact hbox.not_halo h hp
    · exact hbox.not_halo h hq
  · intro he
    refine C09_lc_c18_self_exactly_once _ _ _ (cellsPerInteractionLength id csf) hbox.ilPos hx hy hz oz
      (by omega) (by omega) (by omega) _ (hbox.inGrid p) ?_
    rcases hin with h | h
    · exact hbox.not_halo h
    · have := hbox.not_halo h
      change ¬ IsHalo _ _ cq at this
      rw [← he] at this; exact this

end Verif
