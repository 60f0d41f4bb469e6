import Verif.Model.Mapping
import Verif.Spec.Grid
import Mathlib.Tactic.Ring
namespace Verif
open Spec

theorem flat_lt {c dims : V3 Nat} (h : InGrid c dims) : threeToOneD c dims < numCells dims := by
  obtain ⟨hx, hy, hz⟩ := h
  unfold threeToOneD numCells
  have h1 : c.z * dims.y + c.y + 1 ≤ dims.z * dims.y := by
    have : (c.z + 1) * dims.y ≤ dims.z * dims.y := Nat.mul_le_mul_right _ hz
    rw [Nat.add_mul] at this; omega
  have h2 : (c.z * dims.y + c.y + 1) * dims.x ≤ dims.z * dims.y * dims.x := Nat.mul_le_mul_right _ h1
  have h3 : dims.z * dims.y * dims.x = dims.x * dims.y * dims.z := by ring
  rw [h3] at h2
  rw [Nat.add_mul (c.z * dims.y + c.y) 1, Nat.one_mul] at h2
  omega

theorem oneToThreeD_threeToOneD {c dims : V3 Nat} (h : InGrid c dims) :
    oneToThreeD (threeToOneD c dims) dims = c := by
  obtain ⟨hx, hy, hz⟩ := h
  have hx0 : 0 < dims.x := by omega
  have hy0 : 0 < dims.y := by omega
  have hlow : c.y * dims.x + c.x < dims.x * dims.y := by
    have : (c.y + 1) * dims.x ≤ dims.y * dims.x := Nat.mul_le_mul_right _ hy
    rw [Nat.add_mul, Nat.one_mul, Nat.mul_comm dims.y] at this; omega
  have e1 : threeToOneD c dims = (c.y * dims.x + c.x) + (dims.x * dims.y) * c.z := by
    unfold threeToOneD; ring
  have hz' : threeToOneD c dims / (dims.x * dims.y) = c.z := by
    rw [e1, Nat.add_mul_div_left _ _ (Nat.mul_pos hx0 hy0), Nat.div_eq_of_lt hlow, Nat.zero_add]
  have e2 : threeToOneD c dims - c.z * dims.x * dims.y = c.x + dims.x * c.y := by
    have : threeToOneD c dims = (c.x + dims.x * c.y) + c.z * dims.x * dims.y := by unfold threeToOneD; ring
    omega
  have hy' : (c.x + dims.x * c.y) / dims.x = c.y := by
    rw [Nat.add_mul_div_left _ _ hx0, Nat.div_eq_of_lt hx, Nat.zero_add]
  have e3 : threeToOneD c dims - dims.x * (c.y + dims.y * c.z) = c.x := by
    have : threeToOneD c dims = c.x + dims.x * (c.y + dims.y * c.z) := by unfold threeToOneD; ring
    omega
  simp only [oneToThreeD, hz', e2, hy', e3]

theorem oneToThreeD_bounds {i : Nat} {dims : V3 Nat} (h : i < numCells dims) :
    InGrid (oneToThreeD i dims) dims ∧ threeToOneD (oneToThreeD i dims) dims = i ∧
    (oneToThreeD i dims).z * dims.x * dims.y ≤ i ∧
    dims.x * ((oneToThreeD i dims).y + dims.y * (oneToThreeD i dims).z) ≤ i := by
  unfold numCells at h
  have hx0 : 0 < dims.x := by
    rcases Nat.eq_zero_or_pos dims.x with h0 | h0
    · simp [h0] at h
    · exact h0
  have hy0 : 0 < dims.y := by
    rcases Nat.eq_zero_or_pos dims.y with h0 | h0
    · simp [h0] at h
    · exact h0
  have hxy := Nat.mul_pos hx0 hy0
  have hz : i / (dims.x * dims.y) < dims.z := by
    rw [Nat.div_lt_iff_lt_mul hxy]; rw [Nat.mul_comm dims.z]; exact h
  have hsub : i - i / (dims.x * dims.y) * dims.x * dims.y = i % (dims.x * dims.y) := by
    have := Nat.div_add_mod i (dims.x * dims.y)
    have e : i / (dims.x * dims.y) * dims.x * dims.y = (dims.x * dims.y) * (i / (dims.x * dims.y)) := by ring
    omega
  have hle1 : i / (dims.x * dims.y) * dims.x * dims.y ≤ i := by
    have := Nat.div_mul_le_self i (dims.x * dims.y)
    rwa [← Nat.mul_assoc] at this
  have hm := Nat.mod_lt i hxy
  have hy : i % (dims.x * dims.y) / dims.x < dims.y := by
    rw [Nat.div_lt_iff_lt_mul hx0, Nat.mul_comm dims.y]; exact hm
  have hdm := Nat.div_add_mod i (dims.x * dims.y)
  have hdm2 := Nat.div_add_mod (i % (dims.x * dims.y)) dims.x
  have hm2 := Nat.mod_lt (i % (dims.x * dims.y)) hx0
  set q := i / (dims.x * dims.y) with hq
  set r := i % (dims.x * dims.y) with hr
  set s := r / dims.x with hsdef
  have e3 : dims.x * (s + dims.y * q) = dims.x * s + dims.x * dims.y * q := by ring
  have hxv : i - dims.x * (s + dims.y * q) = r % dims.x := by omega
  have hO : oneToThreeD i dims = ⟨r % dims.x, s, q⟩ := by
    simp only [oneToThreeD, ← hq, hsub, ← hsdef, hxv]
  rw [hO]
  refine ⟨⟨hm2, hy, hz⟩, ?_, hle1, by simp only; omega⟩
  unfold threeToOneD
  simp only
  have : (q * dims.y + s) * dims.x = dims.x * (s + dims.y * q) := by ring
  rw [this]; omega

theorem flat_inj {c c' dims : V3 Nat} (h : InGrid c dims) (h' : InGrid c' dims)
    (he : threeToOneD c dims = threeToOneD c' dims) : c = c' := by
  rw [← oneToThreeD_threeToOneD h, ← oneToThreeD_threeToOneD h', he]

end Verif
