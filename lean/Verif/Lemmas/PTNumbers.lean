import Verif.Model.PredictiveTuning
import Verif.Spec.PredictiveTuning
import Mathlib.Tactic.Linarith
import Mathlib.Tactic.NormNum
import Mathlib.Tactic.Ring
import Mathlib.Tactic.FieldSimp

/-! Lemmas about the conversions used by predictive tuning. -/
namespace Verif.PT
open Spec

theorem tdiv_close (x : ℚ) : |((x.num.tdiv x.den : Int) : ℚ) - x| < 1 := by
  have hden : (0 : ℚ) < x.den := by exact_mod_cast x.den_pos
  have h := Int.mul_tdiv_add_tmod x.num x.den
  have hm : |(x.num.tmod x.den)| < (x.den : Int) := by
    have h1 := Int.tmod_lt_of_pos x.num (b := (x.den : Int)) (by exact_mod_cast x.den_pos)
    have h2 : -(x.den : Int) < x.num.tmod x.den := by
      have := Int.tmod_lt_of_pos (-x.num) (b := (x.den : Int)) (by exact_mod_cast x.den_pos)
      rw [Int.neg_tmod] at this
      omega
    exact abs_lt.2 ⟨h2, h1⟩
  have hx : x = (x.num : ℚ) / x.den := (Rat.num_div_den x).symm
  have hq : (x.num : ℚ) = x.den * ((x.num.tdiv x.den : Int) : ℚ) + ((x.num.tmod x.den : Int) : ℚ) := by
    exact_mod_cast h.symm
  have : ((x.num.tdiv x.den : Int) : ℚ) - x = -(((x.num.tmod x.den : Int) : ℚ) / x.den) := by
    generalize x.num.tdiv x.den = d at hq
    generalize x.num.tmod x.den = m at hq
    have hd := hden.ne'
    have hx' : x * x.den = x.den * d + m := by
      rw [← hq]
      exact Rat.mul_den_eq_num x
    rw [← neg_div, eq_div_iff hd]
    linarith
  rw [this, abs_neg, abs_div, abs_of_pos hden, div_lt_one hden]
  exact_mod_cast hm

theorem tdiv_int (v : Int) : (v : ℚ).num.tdiv (v : ℚ).den = v := by simp

theorem toLong_close {x : ℚ} {v : Int} (h : toLong x = .ok v) : |(v : ℚ) - x| < 1 ∧ longMin ≤ v ∧ v ≤ longMax := by
  unfold toLong at h
  split at h
  next hr =>
    injection h with h
    subst h
    exact ⟨tdiv_close x, hr⟩
  next => cases h

theorem toLong_ok {x : ℚ} (h : |x| ≤ longMax) : ∃ v, toLong x = .ok v := by
  unfold toLong
  rw [if_pos]
  · exact ⟨_, rfl⟩
  · have h1 := abs_lt.1 (tdiv_close x)
    have h2 := abs_le.1 h
    have h3 : ((x.num.tdiv x.den : Int) : ℚ) < ((longMax + 1 : Int) : ℚ) := by push_cast; linarith
    have h4 : ((-longMax - 1 : Int) : ℚ) < ((x.num.tdiv x.den : Int) : ℚ) := by push_cast; linarith
    have h3' : x.num.tdiv x.den < longMax + 1 := by exact_mod_cast h3
    have h4' : -longMax - 1 < x.num.tdiv x.den := by exact_mod_cast h4
    have : longMin = -longMax - 1 := by decide
    omega

theorem longMax_le_doubleMax : (longMax : ℚ) ≤ doubleMax := by
  unfold longMax doubleMax
  have h : (2 : ℚ) ^ 1024 = 2 ^ 53 * 2 ^ 971 := by rw [← pow_add]
  have h2 : (1 : ℚ) ≤ 2 ^ 907 := one_le_pow₀ (by norm_num)
  have h3 : (2 : ℚ) ^ 971 = 2 ^ 64 * 2 ^ 907 := by rw [← pow_add]
  rw [h, h3]
  generalize (2 : ℚ) ^ 907 = t at h2
  push_cast
  nlinarith

theorem safeMulD_eq {a b : ℚ} (h : |a * b| ≤ longMax) : safeMulD a b = a * b := by
  have h1 := abs_le.1 h
  have h2 := longMax_le_doubleMax
  unfold safeMulD
  rw [if_neg (by linarith), if_neg (by linarith)]

theorem subSize_eq {a b : Nat} (h : b ≤ a) (ha : a < 2 ^ 64) : subSize a b = a - b := by
  unfold subSize
  omega

/-- Adding a truncated change to a base value, with the checks of `safeAdd` and of underflow. -/
theorem safeAdd_predicts (a b : Int) (x : ℚ) (ha : longMin ≤ a) (hb0 : longMin ≤ b) (hb : |(b : ℚ) - x| < 1)
    (hnov : (a : ℚ) + x ≤ longMax - 1) :
    Predicts 1 (underflowChecked (safeAdd a b underflowValue overflowValue)) (a + x) := by
  have hb' := abs_lt.1 hb
  have hlt : a + b < longMax := by
    have : ((a + b : Int) : ℚ) < ((longMax : Int) : ℚ) := by push_cast; linarith
    exact_mod_cast this
  by_cases h1 : longMin ≤ a + b
  · have hs : safeAdd a b underflowValue overflowValue = a + b := if_pos ⟨h1, hlt.le⟩
    rw [hs]
    by_cases h0 : a + b < 0
    · right
      refine ⟨if_pos h0, ?_⟩
      have : ((a + b : Int) : ℚ) ≤ ((-1 : Int) : ℚ) := by exact_mod_cast (by omega : a + b ≤ -1)
      push_cast at this
      linarith
    · have hu : underflowChecked (a + b) = a + b := if_neg h0
      rw [hu]
      left
      refine ⟨by omega, ?_⟩
      push_cast
      have : (a : ℚ) + b - (a + x) = b - x := by ring
      rw [this]
      exact hb
  · have h00 : longMin ≤ 0 := by decide
    have hneg : a < 0 ∧ b < 0 := by omega
    have hs : safeAdd a b underflowValue overflowValue = underflowValue := by
      unfold safeAdd
      rw [if_neg (fun h => h1 h.1), if_pos hneg]
    rw [hs]
    right
    refine ⟨by decide, ?_⟩
    have hsum : ((a + b : Int) : ℚ) ≤ ((-1 : Int) : ℚ) := by exact_mod_cast (by omega : a + b ≤ -1)
    push_cast at hsum
    linarith

end Verif.PT
