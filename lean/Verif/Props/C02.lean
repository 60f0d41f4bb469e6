import Verif.Lemmas.CellBlock3D
/-!
# C02 — A position is always stored in an existing cell of the right kind
-/
namespace Verif
open Spec

/-- Whatever rounding does (see `Rounding` in Spec/Geometry.lean), looking up the cell of any position yields a cell
of the grid, and that cell is an owned (non-halo) cell iff the position is inside the user's box. -/
theorem C02_lookup_right_kind (rnd : Rat → Rat) (hr : Rounding rnd) (bMin bMax : V3 Rat) (il csf : Rat)
    (hx : bMin.x < bMax.x) (hy : bMin.y < bMax.y) (hz : bMin.z < bMax.z) (hc : 0 < csf)
    (hnx : cellsPerDim rnd bMin.x bMax.x il csf ≤ 2 ^ 51) (hny : cellsPerDim rnd bMin.y bMax.y il csf ≤ 2 ^ 51)
    (hnz : cellsPerDim rnd bMin.z bMax.z il csf ≤ 2 ^ 51) (pos : V3 Rat) :
    let b := CellBlock.rebuild rnd bMin bMax il csf
    InGrid (b.indexOfPosition rnd pos) b.dims ∧
    (¬ IsHalo (cellsPerInteractionLength rnd csf) b.dims (b.indexOfPosition rnd pos) ↔ InBox pos bMin bMax) := by
  intro b
  obtain ⟨x1, x2⟩ := axis_index hr hx hc hnx pos.x
  obtain ⟨y1, y2⟩ := axis_index hr hy hc hny pos.y
  obtain ⟨z1, z2⟩ := axis_index hr hz hc hnz pos.z
  refine ⟨⟨x1, y1, z1⟩, ?_⟩
  unfold InBox
  rw [← x2, ← y2, ← z2]
  unfold IsHalo
  have ex : (AxisBlock.rebuild rnd bMin.x bMax.x il csf).cpil = cellsPerInteractionLength rnd csf := rfl
  have ey : (AxisBlock.rebuild rnd bMin.y bMax.y il csf).cpil = cellsPerInteractionLength rnd csf := rfl
  have ez : (AxisBlock.rebuild rnd bMin.z bMax.z il csf).cpil = cellsPerInteractionLength rnd csf := rfl
  rw [ex, ey, ez]
  simp only [b, CellBlock.rebuild, CellBlock.dims, CellBlock.indexOfPosition]
  omega

/-- The flag used to decide which cells may hold halo particles agrees with the geometric meaning of halo cell. -/
theorem C02_halo_flag (rnd : Rat → Rat) (hr : Rounding rnd) (bMin bMax : V3 Rat) (il csf : Rat) (hc : 0 < csf)
    (c : V3 Nat) (hg : InGrid c (CellBlock.rebuild rnd bMin bMax il csf).dims) :
    (CellBlock.rebuild rnd bMin bMax il csf).cellCanContainHalo
        (threeToOneD c (CellBlock.rebuild rnd bMin bMax il csf).dims) = true ↔
      IsHalo (cellsPerInteractionLength rnd csf) (CellBlock.rebuild rnd bMin bMax il csf).dims c := by
  have h1 := cpil_pos hr hc
  have hx := cpd_pos rnd bMin.x bMax.x il csf
  have hy := cpd_pos rnd bMin.y bMax.y il csf
  have hz := cpd_pos rnd bMin.z bMax.z il csf
  refine cellCanContainHalo_iff rfl rfl ?_ ?_ ?_ hg <;>
    simp only [CellBlock.rebuild, AxisBlock.rebuild] <;> omega

/-- A rounding that is not the identity: every result is too large by the maximal relative error (for positive
numbers), so a position just below the upper box face gets the raw coordinate of the first halo cell. -/
example : Rounding (fun a => a + 1 / 2 ^ 53 * |a|) := by
  refine ⟨?_, by simp, ?_⟩
  · intro a b hab
    have h1 : |a| - |b| ≤ |a - b| := abs_sub_abs_le_abs_sub a b
    have h2 : |a - b| = b - a := by rw [abs_sub_comm]; exact abs_of_nonneg (by linarith)
    have : (1 : Rat) / 2 ^ 53 * (|a| - |b|) ≤ b - a := by
      have hba : 0 ≤ b - a := by linarith
      have h3 : |a| - |b| ≤ b - a := by rw [← h2]; exact h1
      have h4 : (1 : Rat) / 2 ^ 53 * (|a| - |b|) ≤ 1 / 2 ^ 53 * (b - a) :=
        mul_le_mul_of_nonneg_left h3 (by norm_num)
      have h5 : (1 : Rat) / 2 ^ 53 * (b - a) ≤ 1 * (b - a) := mul_le_mul_of_nonneg_right (by norm_num) hba
      linarith
    linarith
  · intro a
    simp only [add_sub_cancel_left]
    rw [abs_mul, abs_abs, abs_of_pos (by norm_num : (0 : Rat) < 1 / 2 ^ 53)]

-- a 10×20×30 box with interaction length 2 and cell size factor 1/2: the position (-1/100, 3, 4) is outside the box
example : IsHalo (cellsPerInteractionLength id (1 / 2)) (CellBlock.rebuild id ⟨0, 0, 0⟩ ⟨10, 20, 30⟩ 2 (1 / 2)).dims
    ((CellBlock.rebuild id ⟨0, 0, 0⟩ ⟨10, 20, 30⟩ 2 (1 / 2)).indexOfPosition id ⟨-1 / 100, 3, 4⟩) := by
  have h := (C02_lookup_right_kind id .exact ⟨0, 0, 0⟩ ⟨10, 20, 30⟩ 2 (1 / 2) (by norm_num) (by norm_num) (by norm_num)
    (by norm_num) (by norm_num [cellsPerDim]) (by norm_num [cellsPerDim]) (by norm_num [cellsPerDim])
    ⟨-1 / 100, 3, 4⟩).2
  by_contra hn
  have := (h.1 hn).1.1
  norm_num at this

end Verif
