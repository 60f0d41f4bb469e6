import Verif.Model.CellBlock3D
import Verif.Spec.Geometry
import Verif.Spec.CellPairs
import Verif.Lemmas.Mapping
import Verif.Lemmas.Basic
import Verif.Lemmas.CellOp
import Mathlib.Algebra.Order.Field.Basic
import Mathlib.Tactic.Linarith
import Mathlib.Tactic.Positivity
import Mathlib.Tactic.FieldSimp
namespace Verif
open Spec

namespace Spec.Rounding
variable {rnd : Rat → Rat} (h : Rounding rnd)
include h

theorem pos {a : Rat} (ha : 0 < a) : 0 < rnd a := by
  have := h.err a
  rw [abs_of_pos ha, abs_le] at this
  have : (1 : Rat) / 2 ^ 53 * a < a := by
    have : (1 : Rat) / 2 ^ 53 < 1 := by norm_num
    nlinarith
  linarith

theorem nonneg {a : Rat} (ha : 0 ≤ a) : 0 ≤ rnd a := by
  have := h.mono 0 a ha
  rwa [h.zero] at this

theorem nonpos {a : Rat} (ha : a ≤ 0) : rnd a ≤ 0 := by
  have := h.mono a 0 ha
  rwa [h.zero] at this

theorem upper {a : Rat} (ha : 0 ≤ a) : rnd a ≤ a * (1 + 1 / 2 ^ 53) := by
  have := h.err a
  rw [abs_of_nonneg ha, abs_le] at this
  linarith

end Spec.Rounding

theorem cpil_pos {rnd : Rat → Rat} (h : Rounding rnd) {csf : Rat} (hc : 0 < csf) :
    1 ≤ cellsPerInteractionLength rnd csf := by
  unfold cellsPerInteractionLength
  split
  · omega
  · have : 0 < rnd (1 / csf) := h.pos (by positivity)
    have := Int.ceil_pos.2 this
    omega

theorem cpd_pos (rnd : Rat → Rat) (bMin bMax il csf : Rat) : 1 ≤ cellsPerDim rnd bMin bMax il csf := by
  unfold cellsPerDim; omega

/-- Raw cell coordinate (before adding the halo width) of a position. -/
theorem raw_bounds {rnd : Rat → Rat} (h : Rounding rnd) {bMin bMax il csf pos : Rat} (hb : bMin < bMax)
    (hn : cellsPerDim rnd bMin bMax il csf ≤ 2 ^ 51) :
    (pos < bMin → ⌊rnd (rnd (pos - bMin) * rnd (cellsPerDim rnd bMin bMax il csf / rnd (bMax - bMin)))⌋ ≤ 0) ∧
    (bMin ≤ pos → 0 ≤ ⌊rnd (rnd (pos - bMin) * rnd (cellsPerDim rnd bMin bMax il csf / rnd (bMax - bMin)))⌋) ∧
    (pos < bMax → ⌊rnd (rnd (pos - bMin) * rnd (cellsPerDim rnd bMin bMax il csf / rnd (bMax - bMin)))⌋ ≤
        cellsPerDim rnd bMin bMax il csf) := by
  set n := cellsPerDim rnd bMin bMax il csf with hndef
  have hn1 : 1 ≤ n := cpd_pos _ _ _ _ _
  have hnr : (1 : Rat) ≤ n := by exact_mod_cast hn1
  have hnr' : (n : Rat) ≤ 2 ^ 51 := by exact_mod_cast hn
  have hL : 0 < rnd (bMax - bMin) := h.pos (by linarith)
  set L := rnd (bMax - bMin) with hLdef
  have hr : 0 < rnd (n / L) := h.pos (by positivity)
  refine ⟨?_, ?_, ?_⟩
  · intro hp
    have h1 : rnd (pos - bMin) ≤ 0 := h.nonpos (by linarith)
    have h2 : rnd (rnd (pos - bMin) * rnd (n / L)) ≤ 0 := h.nonpos (mul_nonpos_of_nonpos_of_nonneg h1 hr.le)
    have : ⌊rnd (rnd (pos - bMin) * rnd (n / L))⌋ ≤ ⌊(0 : Rat)⌋ := Int.floor_le_floor h2
    simpa using this
  · intro hp
    have h1 : 0 ≤ rnd (pos - bMin) := h.nonneg (by linarith)
    exact Int.floor_nonneg.2 (h.nonneg (mul_nonneg h1 hr.le))
  · intro hp
    have h1 : rnd (pos - bMin) ≤ L := h.mono _ _ (by linarith)
    have h2 : rnd (n / L) ≤ n / L * (1 + 1 / 2 ^ 53) := h.upper (by positivity)
    have h3 : rnd (pos - bMin) * rnd (n / L) ≤ n * (1 + 1 / 2 ^ 53) := by
      calc rnd (pos - bMin) * rnd (n / L) ≤ L * rnd (n / L) := mul_le_mul_of_nonneg_right h1 hr.le
        _ ≤ L * (n / L * (1 + 1 / 2 ^ 53)) := mul_le_mul_of_nonneg_left h2 hL.le
        _ = n * (1 + 1 / 2 ^ 53) := by field_simp
    have h4 : rnd (rnd (pos - bMin) * rnd (n / L)) ≤ n * (1 + 1 / 2 ^ 53) * (1 + 1 / 2 ^ 53) :=
      (h.mono _ _ h3).trans (h.upper (by positivity))
    have h5 : (n : Rat) * (1 + 1 / 2 ^ 53) * (1 + 1 / 2 ^ 53) < n + 1 := by nlinarith
    have : ⌊rnd (rnd (pos - bMin) * rnd (n / L))⌋ < (n : Int) + 1 := by
      rw [Int.floor_lt]
      push_cast
      linarith
    omega

theorem axis_index {rnd : Rat → Rat} (h : Rounding rnd) {bMin bMax il csf : Rat} (hb : bMin < bMax) (hc : 0 < csf)
    (hn : cellsPerDim rnd bMin bMax il csf ≤ 2 ^ 51) (pos : Rat) :
    let a := AxisBlock.rebuild rnd bMin bMax il csf
    a.indexOfPosition rnd pos < a.dim ∧
    ((a.cpil ≤ a.indexOfPosition rnd pos ∧ a.indexOfPosition rnd pos + a.cpil < a.dim) ↔ bMin ≤ pos ∧ pos < bMax) := by
  intro a
  obtain ⟨r1, r2, r3⟩ := raw_bounds (pos := pos) h hb hn
  have hc1 := cpil_pos h hc
  have hd1 := cpd_pos rnd bMin bMax il csf
  have e1 : a.cpil = cellsPerInteractionLength rnd csf := rfl
  have e2 : a.dim = cellsPerDim rnd bMin bMax il csf + 2 * a.cpil := rfl
  have e3 : a.boxMin = bMin := rfl
  have e4 : a.boxMax = bMax := rfl
  have e5 : a.cellLengthReciprocal = rnd (cellsPerDim rnd bMin bMax il csf / rnd (bMax - bMin)) := rfl
  unfold AxisBlock.indexOfPosition
  rw [e3, e4, e5]
  generalize ⌊rnd (rnd (pos - bMin) * rnd (cellsPerDim rnd bMin bMax il csf / rnd (bMax - bMin)))⌋ = raw at *
  generalize cellsPerDim rnd bMin bMax il csf = n at *
  generalize cellsPerInteractionLength rnd csf = k at *
  rw [e1] at e2
  rw [e2, e1]
  simp only
  by_cases hp1 : pos ≥ bMax
  · have hlo : bMin ≤ pos := by linarith
    have := r2 hlo
    rw [if_pos hp1]
    have : ¬ (bMin ≤ pos ∧ pos < bMax) := fun hh => absurd hh.2 (not_lt.2 hp1)
    rw [iff_false_right this]
    omega
  · rw [if_neg hp1]
    have hp1' : pos < bMax := not_le.1 hp1
    have h3 := r3 hp1'
    by_cases hp2 : pos < bMin
    · have h1 := r1 hp2
      have : ¬ (bMin ≤ pos ∧ pos < bMax) := fun hh => absurd hh.1 (not_le.2 hp2)
      rw [iff_false_right this]
      simp only [hp2, hp1', true_and]
      split_ifs <;> omega
    · have hp2' : bMin ≤ pos := not_lt.1 hp2
      have h2 := r2 hp2'
      have : bMin ≤ pos ∧ pos < bMax := ⟨hp2', hp1'⟩
      rw [iff_true_right this]
      simp only [hp2, hp1', true_and, false_and, if_false]
      split_ifs <;> omega

theorem flat_mono {a b dims : V3 Nat} (hx : a.x ≤ b.x) (hy : a.y ≤ b.y) (hz : a.z ≤ b.z) :
    threeToOneD a dims ≤ threeToOneD b dims := by
  unfold threeToOneD
  have h1 := Nat.mul_le_mul_right dims.y hz
  have h2 : (a.z * dims.y + a.y) * dims.x ≤ (b.z * dims.y + b.y) * dims.x := Nat.mul_le_mul_right _ (by omega)
  omega

theorem cellCanContainHalo_iff {b : CellBlock} (hxy : b.x.cpil = b.y.cpil) (hxz : b.x.cpil = b.z.cpil)
    (hx : 2 * b.x.cpil + 1 ≤ b.x.dim) (hy : 2 * b.x.cpil + 1 ≤ b.y.dim) (hz : 2 * b.x.cpil + 1 ≤ b.z.dim)
    {c : V3 Nat} (hc : InGrid c b.dims) :
    b.cellCanContainHalo (threeToOneD c b.dims) = true ↔ IsHalo b.x.cpil b.dims c := by
  have _ := hxy
  have _ := hxz
  set h := b.x.cpil with hh
  have hfirst : b.firstOwned = threeToOneD ⟨h, h, h⟩ b.dims := by
    unfold CellBlock.firstOwned threeToOneD CellBlock.dims
    rw [← hh]; ring
  have hlastsum : threeToOneD ⟨b.x.dim - 1 - h, b.y.dim - 1 - h, b.z.dim - 1 - h⟩ b.dims + b.firstOwned + 1 =
      b.x.dim * b.y.dim * b.z.dim := by
    rw [hfirst]
    unfold threeToOneD CellBlock.dims
    simp only
    obtain ⟨X, hX⟩ : ∃ X, b.x.dim = X + 1 + h := ⟨b.x.dim - 1 - h, by omega⟩
    obtain ⟨Y, hY⟩ : ∃ Y, b.y.dim = Y + 1 + h := ⟨b.y.dim - 1 - h, by omega⟩
    obtain ⟨Z, hZ⟩ : ∃ Z, b.z.dim = Z + 1 + h := ⟨b.z.dim - 1 - h, by omega⟩
    have e1 : b.x.dim - 1 - h = X := by omega
    have e2 : b.y.dim - 1 - h = Y := by omega
    have e3 : b.z.dim - 1 - h = Z := by omega
    rw [e1, e2, e3, hX, hY, hZ]
    ring
  have hlast : b.lastOwned = threeToOneD ⟨b.x.dim - 1 - h, b.y.dim - 1 - h, b.z.dim - 1 - h⟩ b.dims := by
    unfold CellBlock.lastOwned
    omega
  have hcx : c.x < b.x.dim := hc.1
  have hcy : c.y < b.y.dim := hc.2.1
  have hcz : c.z < b.z.dim := hc.2.2
  have quick : ∀ n1 n2 n3 : Nat, n1 = threeToOneD c b.dims → n2 = threeToOneD ⟨h, h, h⟩ b.dims →
      n3 = threeToOneD ⟨b.x.dim - 1 - h, b.y.dim - 1 - h, b.z.dim - 1 - h⟩ b.dims → (n1 < n2 ∨ n1 > n3) →
      (c.x < h ∨ b.x.dim ≤ c.x + h) ∨ (c.y < h ∨ b.y.dim ≤ c.y + h) ∨ c.z < h ∨ b.z.dim ≤ c.z + h := by
    intro n1 n2 n3 e1 e2 e3 hq
    by_contra hn
    rcases hq with hq | hq
    · have := @flat_mono ⟨h, h, h⟩ c b.dims (by simp only; omega) (by simp only; omega) (by simp only; omega)
      omega
    · have := @flat_mono c ⟨b.x.dim - 1 - h, b.y.dim - 1 - h, b.z.dim - 1 - h⟩ b.dims
          (by simp only; omega) (by simp only; omega) (by simp only; omega)
      omega
  have quick' := quick _ _ _ rfl hfirst hlast
  unfold CellBlock.cellCanContainHalo IsHalo
  by_cases hq : threeToOneD c b.dims < b.firstOwned ∨ threeToOneD c b.dims > b.lastOwned
  · rw [if_pos hq]
    exact ⟨fun _ => quick' hq, fun _ => rfl⟩
  · rw [if_neg hq, oneToThreeD_threeToOneD hc, ← hh]
    simp only [Bool.or_eq_true, decide_eq_true_eq, CellBlock.dims]
    omega

theorem mem_haloSlices {k dim i : Nat} (h : k ≤ dim) : i ∈ haloSlices k dim ↔ i < dim ∧ (i < k ∨ dim ≤ i + k) := by
  unfold haloSlices
  simp only [List.mem_append, List.mem_range, List.mem_map]
  constructor
  · rintro (h1 | ⟨m, hm, rfl⟩) <;> omega
  · rintro ⟨h1, h2 | h2⟩
    · exact Or.inl h2
    · exact Or.inr ⟨i - (dim - k), by omega, by omega⟩

theorem mem_forUp_one {a b i : Nat} : i ∈ forUp a b 1 ↔ a ≤ i ∧ i < b := by
  rw [mem_forUp (by omega), Nat.mod_one]; simp

theorem mem_clearHaloIndices {dims : V3 Nat} {k : Nat} (hk : 1 ≤ k) (hx : 2 * k + 1 ≤ dims.x)
    (hy : 2 * k + 1 ≤ dims.y) (hz : 2 * k + 1 ≤ dims.z) {n : Nat} :
    n ∈ clearHaloIndices dims k ↔ ∃ c, InGrid c dims ∧ IsHalo k dims c ∧ n = threeToOneD c dims := by
  unfold clearHaloIndices InGrid IsHalo
  simp only [List.mem_append, List.mem_flatMap, List.mem_map, mem_haloSlices (show k ≤ dims.x by omega),
    mem_haloSlices (show k ≤ dims.y by omega), mem_haloSlices (show k ≤ dims.z by omega), mem_forUp_one]
  constructor
  · rintro ((⟨i, hi, j, hj, l, hl, rfl⟩ | ⟨i, hi, j, hj, l, hl, rfl⟩) | ⟨i, hi, j, hj, l, hl, rfl⟩)
    · exact ⟨⟨i, j, l⟩, ⟨by simp only; omega, by simp only; omega, by simp only; omega⟩, by simp only; omega, rfl⟩
    · exact ⟨⟨i, j, l⟩, ⟨by simp only; omega, by simp only; omega, by simp only; omega⟩, by simp only; omega, rfl⟩
    · exact ⟨⟨i, j, l⟩, ⟨by simp only; omega, by simp only; omega, by simp only; omega⟩, by simp only; omega, rfl⟩
  · rintro ⟨⟨i, j, l⟩, ⟨h1, h2, h3⟩, hh, rfl⟩
    simp only at h1 h2 h3 hh
    by_cases c1 : i < k ∨ dims.x ≤ i + k
    · exact Or.inl (Or.inl ⟨i, ⟨h1, c1⟩, j, by omega, l, by omega, rfl⟩)
    · by_cases c2 : j < k ∨ dims.y ≤ j + k
      · exact Or.inl (Or.inr ⟨i, by omega, j, ⟨h2, c2⟩, l, by omega, rfl⟩)
      · exact Or.inr ⟨i, by omega, j, by omega, l, ⟨h3, by omega⟩, rfl⟩

theorem foldl_clear {P : Type} (l : List Nat) (cs : Nat → List P) (i : Nat) :
    (l.foldl (fun cs index => fun i => if i = index then [] else cs i) cs) i = if i ∈ l then [] else cs i := by
  induction l generalizing cs with
  | nil => simp
  | cons a l ih =>
    rw [List.foldl_cons, ih]
    by_cases h1 : i ∈ l
    · simp [h1]
    · by_cases h2 : i = a
      · simp [h2]
      · simp [h1, h2]

end Verif
