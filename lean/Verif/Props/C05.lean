import Verif.Lemmas.CellGeometry
/-!
# C05 — Halo layers and search radius (in cells) are wide enough for the interaction length
-/
namespace Verif
open Spec

/-- For every valid box, interaction length and cell size factor: the number of neighbour cells a traversal searches
in each direction (the overlap) does not exceed the number of halo layers, and the grid is larger than twice that. -/
theorem C05_overlap_within_halo (bMin bMax : V3 Rat) (il csf : Rat) (hbox : GoodBox bMin bMax il csf) :
    let b := CellBlock.rebuild id bMin bMax il csf
    let ov := overlapOf il b.cellLength
    let hw := cellsPerInteractionLength id csf
    (ov.x ≤ hw ∧ ov.y ≤ hw ∧ ov.z ≤ hw) ∧
    (2 * hw + 1 ≤ b.dims.x ∧ 2 * hw + 1 ≤ b.dims.y ∧ 2 * hw + 1 ≤ b.dims.z) :=
  ⟨hbox.overlap_le, hbox.dims_ge⟩

/-- Any two positions within the interaction length of each other are stored in cells that differ by at most the
overlap in every axis and whose boxes come within the interaction length of each other. -/
theorem C05_close_positions_in_close_cells (bMin bMax : V3 Rat) (il csf : Rat) (hbox : GoodBox bMin bMax il csf)
    (p q : V3 Rat) (hpq : distSq p q ≤ il * il) :
    let b := CellBlock.rebuild id bMin bMax il csf
    WithinOverlap (overlapOf il b.cellLength).toNat (b.indexOfPosition id p) (b.indexOfPosition id q) ∧
    cellGapSq b.cellLength (b.indexOfPosition id p) (b.indexOfPosition id q) ≤ il * il :=
  hbox.close hpq

/-- The lower bound on the box size is needed: for a box smaller than the interaction length the overlap exceeds the
number of halo layers. -/
theorem C05_small_box_counterexample :
    let b := CellBlock.rebuild id ⟨0, 0, 0⟩ ⟨1, 10, 10⟩ 3 1
    ¬ (overlapOf 3 b.cellLength).x ≤ cellsPerInteractionLength id 1 := by
  norm_num [overlapOf, CellBlock.rebuild, CellBlock.cellLength, AxisBlock.rebuild, cellsPerDim, cellsPerInteractionLength]

example : GoodBox ⟨0, 0, 0⟩ ⟨10, 20, 30⟩ 3 (1 / 2) ∧ distSq ⟨1, 2, 3⟩ ⟨2, 4, 5⟩ ≤ 3 * 3 := by
  refine ⟨by constructor <;> norm_num, by norm_num [distSq]⟩

end Verif
