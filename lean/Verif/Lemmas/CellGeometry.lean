import Verif.Lemmas.CellBlock3D
namespace Verif
open Spec

/-- In exact arithmetic all corrections in the position lookup are no-ops. -/
theorem exact_index {bMin bMax il csf : Rat} (hb : bMin < bMax) (hc : 0 < csf) (pos : Rat) :
    let a := AxisBlock.rebuild id bMin bMax il csf
    (a.indexOfPosition id pos : Int) = max 0 (min (⌊(pos - bMin) / a.cellLength⌋ + a.cpil) (a.dim - 1)) := by
  intro a
  have hn1 := cpd_pos id bMin bMax il csf
  have hc1 := cpil_pos Rounding.exact hc
  have e1 : a.cpil = cellsPerInteractionLength id csf := rfl
  have e2 : a.dim = cellsPerDim id bMin bMax il csf + 2 * a.cpil := rfl
  have e3 : a.boxMin = bMin := rfl
  have e4 : a.boxMax = bMax := rfl
  have e5 : a.cellLengthReciprocal = cellsPerDim id bMin bMax il csf / (bMax - bMin) := rfl
  have e6 : a.cellLength = (bMax - bMin) / cellsPerDim id bMin bMax il csf := rfl
  unfold AxisBlock.indexOfPosition
  rw [e3, e4, e5, e6, e2, e1]
  simp only [id]
  generalize cellsPerDim id bMin bMax il csf = n at *
  generalize cellsPerInteractionLength id csf = k at *
  have hnr : (0 : Rat) < n := by exact_mod_cast hn1
  have hL : 0 < bMax - bMin := by linarith
  have ht : (pos - bMin) * (n / (bMax - bMin)) = (pos - bMin) / ((bMax - bMin) / n) := by field_simp
  rw [ht]
  have hlen : 0 < (bMax - bMin) / n := by positivity
  have hlo : pos < bMin → ⌊(pos - bMin) / ((bMax - bMin) / n)⌋ ≤ -1 := by
    intro hp
    have : ⌊(pos - bMin) / ((bMax - bMin) / n)⌋ < 0 := by
      rw [Int.floor_lt]; push_cast
      exact div_neg_of_neg_of_pos (by linarith) hlen
    omega
  have hup : pos < bMax → ⌊(pos - bMin) / ((bMax - bMin) / n)⌋ ≤ (n : Int) - 1 := by
    intro hp
    have : ⌊(pos - bMin) / ((bMax - bMin) / n)⌋ < (n : Int) := by
      rw [Int.floor_lt, div_lt_iff₀ hlen]; push_cast
      have : (n : Rat) * ((bMax - bMin) / n) = bMax - bMin := by field_simp
      linarith
    omega
  have hup' : bMax ≤ pos → (n : Int) ≤ ⌊(pos - bMin) / ((bMax - bMin) / n)⌋ := by
    intro hp
    rw [Int.le_floor, le_div_iff₀ hlen]; push_cast
    have : (n : Rat) * ((bMax - bMin) / n) = bMax - bMin := by field_simp
    linarith
  generalize ⌊(pos - bMin) / ((bMax - bMin) / n)⌋ = r at *
  push_cast
  by_cases h1 : pos ≥ bMax
  · have := hup' h1
    rw [if_pos h1]; omega
  · rw [if_neg h1]
    have h1' : pos < bMax := not_le.1 h1
    have := hup h1'
    by_cases h2 : pos < bMin
    · have := hlo h2
      simp only [h2, h1', true_and]
      split_ifs <;> omega
    · simp only [h2, h1', true_and, false_and, if_false]
      split_ifs <;> omega

/-- In exact arithmetic all snapping in the bounding box is a no-op. -/
theorem exact_boundingBox {bMin bMax il csf : Rat} (hc : 0 < csf) {i : Nat}
    (hi : i < (AxisBlock.rebuild id bMin bMax il csf).dim) :
    let a := AxisBlock.rebuild id bMin bMax il csf
    a.boundingBox id i = (bMin + ((i : Rat) - a.cpil) * a.cellLength, bMin + ((i : Rat) - a.cpil + 1) * a.cellLength) := by
  intro a
  have hn1 := cpd_pos id bMin bMax il csf
  have hc1 := cpil_pos Rounding.exact hc
  have e1 : a.cpil = cellsPerInteractionLength id csf := rfl
  have e2 : a.dim = cellsPerDim id bMin bMax il csf + 2 * a.cpil := rfl
  have e3 : a.boxMin = bMin := rfl
  have e4 : a.boxMax = bMax := rfl
  have e6 : a.cellLength = (bMax - bMin) / cellsPerDim id bMin bMax il csf := rfl
  have e7 : a.haloBoxMin = bMin - a.cpil * a.cellLength := rfl
  have e8 : a.haloBoxMax = bMax + a.cpil * a.cellLength := rfl
  have hi' : i < a.dim := hi
  have hnr : (0 : Rat) < cellsPerDim id bMin bMax il csf := by exact_mod_cast hn1
  have hL : bMax = bMin + (cellsPerDim id bMin bMax il csf : Rat) * a.cellLength := by rw [e6]; field_simp; ring
  unfold AxisBlock.boundingBox
  rw [e3, e4, e7, e8, e2]
  rw [e2] at hi'
  rw [e1] at *
  simp only [id]
  generalize cellsPerDim id bMin bMax il csf = n at *
  generalize a.cellLength = len at *
  generalize cellsPerInteractionLength id csf = k at *
  have hmin : (if i = 0 then bMin - (k : Rat) * len else if i = k then bMin else (i : Rat) * len + (bMin - k * len)) =
      bMin + ((i : Rat) - k) * len := by
    split_ifs with h1 h2
    · rw [h1]; push_cast; ring
    · rw [h2]; ring
    · ring
  rw [hmin]
  split_ifs with h1 h2
  · have : (i : Rat) - k + 1 = n := by
      have : i + 1 = n + k := by omega
      have : (i : Rat) + 1 = n + k := by exact_mod_cast this
      linarith
    rw [this, ← hL]
  · have : (i : Rat) = n + 2 * k - 1 := by
      have : i + 1 = n + 2 * k := by omega
      have : (i : Rat) + 1 = n + 2 * k := by exact_mod_cast this
      linarith
    rw [this, hL]
    ext <;> simp only <;> ring
  · ext
    · rfl
    · simp only; ring

theorem cellLength_pos {bMin bMax il csf : Rat} (hb : bMin < bMax) :
    0 < (AxisBlock.rebuild id bMin bMax il csf).cellLength := by
  have hn1 := cpd_pos id bMin bMax il csf
  have hnr : (0 : Rat) < cellsPerDim id bMin bMax il csf := by exact_mod_cast hn1
  have e6 : (AxisBlock.rebuild id bMin bMax il csf).cellLength = (bMax - bMin) / cellsPerDim id bMin bMax il csf := rfl
  rw [e6]
  have : 0 < bMax - bMin := by linarith
  positivity

/-- On one axis: inside the halo box the cell whose box contains the position is the looked-up one. -/
theorem axis_tile {bMin bMax il csf pos : Rat} (hb : bMin < bMax) (hc : 0 < csf) {i : Nat}
    (hi : i < (AxisBlock.rebuild id bMin bMax il csf).dim)
    (hlo : (AxisBlock.rebuild id bMin bMax il csf).haloBoxMin ≤ pos)
    (hhi : pos < (AxisBlock.rebuild id bMin bMax il csf).haloBoxMax) :
    let a := AxisBlock.rebuild id bMin bMax il csf
    ((a.boundingBox id i).1 ≤ pos ∧ pos < (a.boundingBox id i).2) ↔ i = a.indexOfPosition id pos := by
  intro a
  have hbb := exact_boundingBox (il := il) hc hi
  have hix := exact_index (il := il) hb hc pos
  have hlen := cellLength_pos (il := il) (csf := csf) hb
  have hn1 := cpd_pos id bMin bMax il csf
  have e2 : a.dim = cellsPerDim id bMin bMax il csf + 2 * a.cpil := rfl
  have e6 : a.cellLength = (bMax - bMin) / cellsPerDim id bMin bMax il csf := rfl
  have e7 : a.haloBoxMin = bMin - a.cpil * a.cellLength := rfl
  have e8 : a.haloBoxMax = bMax + a.cpil * a.cellLength := rfl
  have hnr : (0 : Rat) < cellsPerDim id bMin bMax il csf := by exact_mod_cast hn1
  have hL : bMax = bMin + (cellsPerDim id bMin bMax il csf : Rat) * a.cellLength := by rw [e6]; field_simp; ring
  simp only at hbb hix
  change a.boundingBox id i = _ at hbb
  change (a.indexOfPosition id pos : Int) = max 0 (min (⌊(pos - bMin) / a.cellLength⌋ + a.cpil) (a.dim - 1)) at hix
  change 0 < a.cellLength at hlen
  change i < a.dim at hi
  change a.haloBoxMin ≤ pos at hlo
  change pos < a.haloBoxMax at hhi
  change _ = (bMin + ((i : Rat) - a.cpil) * a.cellLength, bMin + ((i : Rat) - a.cpil + 1) * a.cellLength) at hbb
  rw [e7] at hlo; rw [e8] at hhi
  rw [hbb]; simp only
  have f1 : -(a.cpil : Int) ≤ ⌊(pos - bMin) / a.cellLength⌋ := by
    rw [Int.le_floor, le_div_iff₀ hlen]; push_cast; linarith
  have f2 : ⌊(pos - bMin) / a.cellLength⌋ < (cellsPerDim id bMin bMax il csf : Int) + a.cpil := by
    rw [Int.floor_lt, div_lt_iff₀ hlen]; push_cast; linarith
  have key : (bMin + ((i : Rat) - a.cpil) * a.cellLength ≤ pos ∧ pos < bMin + ((i : Rat) - a.cpil + 1) * a.cellLength) ↔
      ⌊(pos - bMin) / a.cellLength⌋ = (i : Int) - a.cpil := by
    rw [Int.floor_eq_iff, le_div_iff₀ hlen, div_lt_iff₀ hlen]
    push_cast
    constructor
    · rintro ⟨h1, h2⟩; constructor <;> linarith
    · rintro ⟨h1, h2⟩; constructor <;> linarith
  rw [key]
  omega

/-- The number of cells per axis times `il*csf` fits into the box, up to the at-least-one rule. -/
theorem cellLength_ge {bMin bMax il csf : Rat} (hb : bMin < bMax) (hil : 0 < il) (hc : 0 < csf)
    (hbox : il ≤ bMax - bMin) :
    il ≤ (cellsPerInteractionLength id csf : Rat) * (AxisBlock.rebuild id bMin bMax il csf).cellLength := by
  have hn1 := cpd_pos id bMin bMax il csf
  have hc1 := cpil_pos Rounding.exact hc
  have e6 : (AxisBlock.rebuild id bMin bMax il csf).cellLength = (bMax - bMin) / cellsPerDim id bMin bMax il csf := rfl
  rw [e6]
  have hcr : (1 : Rat) ≤ cellsPerInteractionLength id csf := by exact_mod_cast hc1
  have hL : 0 < bMax - bMin := by linarith
  have hnr : (0 : Rat) < cellsPerDim id bMin bMax il csf := by exact_mod_cast hn1
  by_cases h1 : cellsPerDim id bMin bMax il csf = 1
  · rw [h1]; push_cast; rw [div_one]
    nlinarith
  · -- then the floor is the number of cells
    have hfl : (cellsPerDim id bMin bMax il csf : Rat) ≤ (bMax - bMin) / (il * csf) := by
      have : (cellsPerDim id bMin bMax il csf : Int) = ⌊(bMax - bMin) / (il * csf)⌋ := by
        unfold cellsPerDim at h1 ⊢
        simp only [id] at h1 ⊢
        omega
      rw [← Int.cast_natCast, this]
      exact Int.floor_le _
    rw [le_div_iff₀ (by positivity)] at hfl
    have hcc : (1 : Rat) ≤ cellsPerInteractionLength id csf * csf := by
      unfold cellsPerInteractionLength
      split
      · rename_i h; push_cast; linarith
      · have hpos : 0 < 1 / csf := by positivity
        have : ((⌈id (1 / csf)⌉.toNat : Nat) : Rat) = (⌈1 / csf⌉ : Int) := by
          simp only [id]
          have h0 : 0 ≤ ⌈1 / csf⌉ := Int.ceil_nonneg hpos.le
          have : ((⌈1 / csf⌉.toNat : Nat) : Int) = ⌈1 / csf⌉ := Int.toNat_of_nonneg h0
          exact_mod_cast this
        rw [this]
        have h2 := Int.le_ceil (1 / csf)
        have : 1 / csf * csf = 1 := by field_simp
        nlinarith
    rw [mul_div_assoc', le_div_iff₀ hnr]
    calc il * (cellsPerDim id bMin bMax il csf : Rat)
        ≤ (cellsPerInteractionLength id csf * csf) * (il * (cellsPerDim id bMin bMax il csf : Rat)) := by
          have : 0 < il * (cellsPerDim id bMin bMax il csf : Rat) := by positivity
          nlinarith
      _ = cellsPerInteractionLength id csf * (cellsPerDim id bMin bMax il csf * (il * csf)) := by ring
      _ ≤ cellsPerInteractionLength id csf * (bMax - bMin) := mul_le_mul_of_nonneg_left hfl (by linarith)

theorem axisDist_cast (i j : Nat) : (axisDist i j : Int) = |(i : Int) - j| := by
  unfold axisDist
  split_ifs with h
  · rw [abs_of_nonpos (by omega)]; omega
  · rw [abs_of_nonneg (by omega)]; omega

/-- Two positions on one axis: their cell indices differ by less than their distance in cells plus one. -/
theorem axis_close {bMin bMax il csf : Rat} (hb : bMin < bMax) (hc : 0 < csf) (p q : Rat) :
    let a := AxisBlock.rebuild id bMin bMax il csf
    ((axisDist (a.indexOfPosition id p) (a.indexOfPosition id q) : Int) ≤ ⌈|p - q| / a.cellLength⌉) ∧
    axisGap a.cellLength (a.indexOfPosition id p) (a.indexOfPosition id q) ≤ |p - q| := by
  intro a
  have h1 := exact_index (il := il) hb hc p
  have h2 := exact_index (il := il) hb hc q
  have hlen := cellLength_pos (il := il) (csf := csf) hb
  change (a.indexOfPosition id p : Int) = max 0 (min (⌊(p - bMin) / a.cellLength⌋ + a.cpil) (a.dim - 1)) at h1
  change (a.indexOfPosition id q : Int) = max 0 (min (⌊(q - bMin) / a.cellLength⌋ + a.cpil) (a.dim - 1)) at h2
  change 0 < a.cellLength at hlen
  have key : ∀ p q : Rat, q ≤ p → 0 ≤ ⌊(p - bMin) / a.cellLength⌋ - ⌊(q - bMin) / a.cellLength⌋ ∧
      ⌊(p - bMin) / a.cellLength⌋ - ⌊(q - bMin) / a.cellLength⌋ ≤ ⌈(p - q) / a.cellLength⌉ ∧
      ((⌊(p - bMin) / a.cellLength⌋ - ⌊(q - bMin) / a.cellLength⌋ - 1 : Int) : Rat) * a.cellLength ≤ p - q := by
    intro p q hpq
    have m1 : ⌊(q - bMin) / a.cellLength⌋ ≤ ⌊(p - bMin) / a.cellLength⌋ :=
      Int.floor_le_floor (div_le_div_of_nonneg_right (by linarith) hlen.le)
    have f1 := Int.floor_le ((p - bMin) / a.cellLength)
    have f2 := Int.lt_floor_add_one ((q - bMin) / a.cellLength)
    have heq : (p - bMin) / a.cellLength - (q - bMin) / a.cellLength = (p - q) / a.cellLength := by ring
    have hlt : ((⌊(p - bMin) / a.cellLength⌋ - ⌊(q - bMin) / a.cellLength⌋ - 1 : Int) : Rat) < (p - q) / a.cellLength := by
      push_cast; linarith
    refine ⟨by omega, ?_, ?_⟩
    · have := Int.lt_ceil.2 hlt
      omega
    · rw [← le_div_iff₀ hlen]; exact hlt.le
  unfold axisGap
  have hd := axisDist_cast (a.indexOfPosition id p) (a.indexOfPosition id q)
  rcases le_total q p with h | h
  · obtain ⟨k1, k2, k3⟩ := key p q h
    rw [abs_of_nonneg (by linarith : 0 ≤ p - q)]
    have hle : (axisDist (a.indexOfPosition id p) (a.indexOfPosition id q) : Int) ≤
        ⌊(p - bMin) / a.cellLength⌋ - ⌊(q - bMin) / a.cellLength⌋ := by
      rw [hd, abs_le]; omega
    refine ⟨by omega, ?_⟩
    by_cases hz : axisDist (a.indexOfPosition id p) (a.indexOfPosition id q) = 0
    · rw [hz]; simp; linarith
    · have : (((axisDist (a.indexOfPosition id p) (a.indexOfPosition id q) - 1 : Nat) : Int) : Rat) ≤
          ((⌊(p - bMin) / a.cellLength⌋ - ⌊(q - bMin) / a.cellLength⌋ - 1 : Int) : Rat) := by
        exact_mod_cast (by omega)
      have := mul_le_mul_of_nonneg_right this hlen.le
      rw [Int.cast_natCast] at this
      linarith
  · obtain ⟨k1, k2, k3⟩ := key q p h
    rw [abs_of_nonpos (by linarith : p - q ≤ 0), neg_sub]
    have hle : (axisDist (a.indexOfPosition id p) (a.indexOfPosition id q) : Int) ≤
        ⌊(q - bMin) / a.cellLength⌋ - ⌊(p - bMin) / a.cellLength⌋ := by
      rw [hd, abs_le]; omega
    refine ⟨by omega, ?_⟩
    by_cases hz : axisDist (a.indexOfPosition id p) (a.indexOfPosition id q) = 0
    · rw [hz]; simp; linarith
    · have : (((axisDist (a.indexOfPosition id p) (a.indexOfPosition id q) - 1 : Nat) : Int) : Rat) ≤
          ((⌊(q - bMin) / a.cellLength⌋ - ⌊(p - bMin) / a.cellLength⌋ - 1 : Int) : Rat) := by
        exact_mod_cast (by omega)
      have := mul_le_mul_of_nonneg_right this hlen.le
      rw [Int.cast_natCast] at this
      linarith

namespace Spec.GoodBox
variable {bMin bMax : V3 Rat} {il csf : Rat} (h : GoodBox bMin bMax il csf)
include h

theorem hx : bMin.x < bMax.x := by have := h.ilPos; have := h.wx; linarith
theorem hy : bMin.y < bMax.y := by have := h.ilPos; have := h.wy; linarith
theorem hz : bMin.z < bMax.z := by have := h.ilPos; have := h.wz; linarith

theorem cl_pos : 0 < (CellBlock.rebuild id bMin bMax il csf).cellLength.x ∧
    0 < (CellBlock.rebuild id bMin bMax il csf).cellLength.y ∧
    0 < (CellBlock.rebuild id bMin bMax il csf).cellLength.z :=
  ⟨cellLength_pos h.hx, cellLength_pos h.hy, cellLength_pos h.hz⟩

theorem overlap_le : (overlapOf il (CellBlock.rebuild id bMin bMax il csf).cellLength).x ≤ cellsPerInteractionLength id csf ∧
    (overlapOf il (CellBlock.rebuild id bMin bMax il csf).cellLength).y ≤ cellsPerInteractionLength id csf ∧
    (overlapOf il (CellBlock.rebuild id bMin bMax il csf).cellLength).z ≤ cellsPerInteractionLength id csf := by
  refine ⟨?_, ?_, ?_⟩
  · simp only [overlapOf, CellBlock.cellLength, CellBlock.rebuild, Int.ceil_le]
    rw [div_le_iff₀ (cellLength_pos h.hx)]; push_cast
    exact cellLength_ge h.hx h.ilPos h.csfPos h.wx
  · simp only [overlapOf, CellBlock.cellLength, CellBlock.rebuild, Int.ceil_le]
    rw [div_le_iff₀ (cellLength_pos h.hy)]; push_cast
    exact cellLength_ge h.hy h.ilPos h.csfPos h.wy
  · simp only [overlapOf, CellBlock.cellLength, CellBlock.rebuild, Int.ceil_le]
    rw [div_le_iff₀ (cellLength_pos h.hz)]; push_cast
    exact cellLength_ge h.hz h.ilPos h.csfPos h.wz

theorem dims_ge : 2 * cellsPerInteractionLength id csf + 1 ≤ (CellBlock.rebuild id bMin bMax il csf).dims.x ∧
    2 * cellsPerInteractionLength id csf + 1 ≤ (CellBlock.rebuild id bMin bMax il csf).dims.y ∧
    2 * cellsPerInteractionLength id csf + 1 ≤ (CellBlock.rebuild id bMin bMax il csf).dims.z := by
  have _ := h
  have hx := cpd_pos id bMin.x bMax.x il csf
  have hy := cpd_pos id bMin.y bMax.y il csf
  have hz := cpd_pos id bMin.z bMax.z il csf
  simp only [CellBlock.dims, CellBlock.rebuild, AxisBlock.rebuild]
  omega

theorem inGrid (p : V3 Rat) : InGrid ((CellBlock.rebuild id bMin bMax il csf).indexOfPosition id p)
    (CellBlock.rebuild id bMin bMax il csf).dims := by
  have hdx := h.dims_ge
  have h1 := exact_index (il := il) h.hx h.csfPos p.x
  have h2 := exact_index (il := il) h.hy h.csfPos p.y
  have h3 := exact_index (il := il) h.hz h.csfPos p.z
  simp only [CellBlock.dims, CellBlock.rebuild, CellBlock.indexOfPosition, InGrid] at *
  omega

/-- Positions within the interaction length lie in cells within the overlap whose boxes come within that length. -/
theorem close {p q : V3 Rat} (hpq : distSq p q ≤ il * il) :
    WithinOverlap (overlapOf il (CellBlock.rebuild id bMin bMax il csf).cellLength).toNat
      ((CellBlock.rebuild id bMin bMax il csf).indexOfPosition id p)
      ((CellBlock.rebuild id bMin bMax il csf).indexOfPosition id q) ∧
    cellGapSq (CellBlock.rebuild id bMin bMax il csf).cellLength
      ((CellBlock.rebuild id bMin bMax il csf).indexOfPosition id p)
      ((CellBlock.rebuild id bMin bMax il csf).indexOfPosition id q) ≤ il * il := by
  obtain ⟨x1, x2⟩ := axis_close (il := il) h.hx h.csfPos p.x q.x
  obtain ⟨y1, y2⟩ := axis_close (il := il) h.hy h.csfPos p.y q.y
  obtain ⟨z1, z2⟩ := axis_close (il := il) h.hz h.csfPos p.z q.z
  have lx := cellLength_pos (il := il) (csf := csf) h.hx
  have ly := cellLength_pos (il := il) (csf := csf) h.hy
  have lz := cellLength_pos (il := il) (csf := csf) h.hz
  unfold distSq at hpq
  have hil := h.ilPos
  have bx : |p.x - q.x| ≤ il := abs_le_of_sq_le_sq (by nlinarith [sq_nonneg (p.y - q.y), sq_nonneg (p.z - q.z)]) hil.le
  have by' : |p.y - q.y| ≤ il := abs_le_of_sq_le_sq (by nlinarith [sq_nonneg (p.x - q.x), sq_nonneg (p.z - q.z)]) hil.le
  have bz : |p.z - q.z| ≤ il := abs_le_of_sq_le_sq (by nlinarith [sq_nonneg (p.y - q.y), sq_nonneg (p.x - q.x)]) hil.le
  have cx := Int.ceil_le_ceil (div_le_div_of_nonneg_right bx lx.le)
  have cy := Int.ceil_le_ceil (div_le_div_of_nonneg_right by' ly.le)
  have cz := Int.ceil_le_ceil (div_le_div_of_nonneg_right bz lz.le)
  constructor
  · simp only [WithinOverlap, overlapOf, V3.toNat, CellBlock.cellLength, CellBlock.rebuild, CellBlock.indexOfPosition]
    omega
  · simp only [cellGapSq, CellBlock.cellLength, CellBlock.rebuild, CellBlock.indexOfPosition]
    have gx : 0 ≤ axisGap (AxisBlock.rebuild id bMin.x bMax.x il csf).cellLength
      ((AxisBlock.rebuild id bMin.x bMax.x il csf).indexOfPosition id p.x)
      ((AxisBlock.rebuild id bMin.x bMax.x il csf).indexOfPosition id q.x) := by unfold axisGap; positivity
    have gy : 0 ≤ axisGap (AxisBlock.rebuild id bMin.y bMax.y il csf).cellLength
      ((AxisBlock.rebuild id bMin.y bMax.y il csf).indexOfPosition id p.y)
      ((AxisBlock.rebuild id bMin.y bMax.y il csf).indexOfPosition id q.y) := by unfold axisGap; positivity
    have gz : 0 ≤ axisGap (AxisBlock.rebuild id bMin.z bMax.z il csf).cellLength
      ((AxisBlock.rebuild id bMin.z bMax.z il csf).indexOfPosition id p.z)
      ((AxisBlock.rebuild id bMin.z bMax.z il csf).indexOfPosition id q.z) := by unfold axisGap; positivity
    have sx := pow_le_pow_left₀ gx x2 2
    have sy := pow_le_pow_left₀ gy y2 2
    have sz := pow_le_pow_left₀ gz z2 2
    rw [sq_abs] at sx sy sz
    linarith

/-- The cell of a position inside the box is not a halo cell. -/
theorem not_halo {p : V3 Rat} (hp : InBox p bMin bMax) :
    ¬ IsHalo (cellsPerInteractionLength id csf) (CellBlock.rebuild id bMin bMax il csf).dims
      ((CellBlock.rebuild id bMin bMax il csf).indexOfPosition id p) := by
  have h1 := exact_index (il := il) h.hx h.csfPos p.x
  have h2 := exact_index (il := il) h.hy h.csfPos p.y
  have h3 := exact_index (il := il) h.hz h.csfPos p.z
  have key : ∀ {lo hi r : Rat}, lo < hi → lo ≤ r → r < hi →
      0 ≤ ⌊(r - lo) / (AxisBlock.rebuild id lo hi il csf).cellLength⌋ ∧
      ⌊(r - lo) / (AxisBlock.rebuild id lo hi il csf).cellLength⌋ < cellsPerDim id lo hi il csf := by
    intro lo hi r hb h1 h2
    have hl := cellLength_pos (il := il) (csf := csf) hb
    have hn1 := cpd_pos id lo hi il csf
    have hnr : (0 : Rat) < cellsPerDim id lo hi il csf := by exact_mod_cast hn1
    have hL : (cellsPerDim id lo hi il csf : Rat) * (AxisBlock.rebuild id lo hi il csf).cellLength = hi - lo := by
      have e6 : (AxisBlock.rebuild id lo hi il csf).cellLength = (hi - lo) / cellsPerDim id lo hi il csf := rfl
      rw [e6]; field_simp
    refine ⟨Int.floor_nonneg.2 (div_nonneg (by linarith) hl.le), ?_⟩
    rw [Int.floor_lt, div_lt_iff₀ hl]; push_cast; linarith
  have kx := key h.hx hp.1.1 hp.1.2
  have ky := key h.hy hp.2.1.1 hp.2.1.2
  have kz := key h.hz hp.2.2.1 hp.2.2.2
  simp only [CellBlock.dims, CellBlock.rebuild, CellBlock.indexOfPosition, IsHalo] at *
  have ex : ∀ lo hi : Rat, (AxisBlock.rebuild id lo hi il csf).dim =
    cellsPerDim id lo hi il csf + 2 * cellsPerInteractionLength id csf := fun _ _ => rfl
  have ec : ∀ lo hi : Rat, (AxisBlock.rebuild id lo hi il csf).cpil = cellsPerInteractionLength id csf := fun _ _ => rfl
  rw [ex] at *
  simp only [ec, ex] at *
  omega

end Spec.GoodBox
end Verif
