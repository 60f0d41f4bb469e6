import Mathlib.Analysis.Real.Sqrt
import Mathlib.Analysis.SpecificLimits.Basic
import Mathlib.Tactic.Linarith
import Mathlib.Tactic.FieldSimp
import Mathlib.Tactic.Ring
import Mathlib.Tactic.Positivity
import Verif.Model.ConstexprMath
/-!
# C140: square roots

The integer square root is exact, the one for floating point numbers stops and is accurate up to the given tolerance.
-/
namespace Verif

namespace Newton

/-- One step of Newton's method ends above the root, at most half as far away as before if it starts above it. -/
theorem step_above {x a : ℝ} (hx : 0 < x) (ha : 0 < a) : √x ≤ 1 / 2 * (a + x / a) := by
  have hs : √x * √x = x := Real.mul_self_sqrt hx.le
  have e : 1 / 2 * (a + x / a) - √x = (a - √x) ^ 2 / (2 * a) := by
    field_simp
    nlinarith
  have : 0 ≤ (a - √x) ^ 2 / (2 * a) := by positivity
  linarith

theorem step_half {x a : ℝ} (hx : 0 < x) (ha : √x ≤ a) : 1 / 2 * (a + x / a) - √x ≤ (a - √x) / 2 := by
  have hs : √x * √x = x := Real.mul_self_sqrt hx.le
  have h0 : 0 < √x := Real.sqrt_pos.2 hx
  have ha0 : 0 < a := by linarith
  have : x / a ≤ √x := by
    rw [div_le_iff₀ ha0]
    nlinarith
  linarith

theorem abs_ite (a b : ℝ) : (if a - b < 0 then b - a else a - b) = |a - b| := by
  split_ifs with h
  · rw [abs_of_neg h]; ring
  · rw [abs_of_nonneg (not_lt.1 h)]

/-- From a value above the root the loop ends, and its result is as good as the last step was short. -/
theorem loop_ends {x ε : ℝ} (hx : 0 < x) (hε : 0 < ε) :
    ∀ n a prev, √x ≤ a → a - √x ≤ ε * 2 ^ n → (|a - prev| ≤ ε → a - √x ≤ ε) →
      ∃ r, (∀ passes, n + 2 ≤ passes → newtonLoop x ε passes a prev = .ok (some r)) ∧ √x ≤ r ∧ r - √x ≤ ε := by
  intro n
  induction n with
  | zero =>
    intro a prev h1 h2 h3
    have h0 : 0 < √x := Real.sqrt_pos.2 hx
    by_cases hc : |a - prev| ≤ ε
    · refine ⟨a, fun p hp => ?_, h1, h3 hc⟩
      obtain ⟨q, rfl⟩ : ∃ q, p = q + 1 := ⟨p - 1, by omega⟩
      rw [newtonLoop, abs_ite, if_neg (by simpa using hc)]
    · have hup := step_above hx (show 0 < a by linarith)
      have hha := step_half hx h1
      refine ⟨1 / 2 * (a + x / a), fun p hp => ?_, hup, by simp at h2; linarith⟩
      obtain ⟨q, rfl⟩ : ∃ q, p = q + 2 := ⟨p - 2, by omega⟩
      rw [newtonLoop, abs_ite, if_pos (by simpa using hc), newtonLoop, abs_ite, if_neg]
      simp only [gt_iff_lt, not_lt]
      rw [abs_le]
      constructor <;> simp at h2 <;> linarith
  | succ n ih =>
    intro a prev h1 h2 h3
    have h0 : 0 < √x := Real.sqrt_pos.2 hx
    by_cases hc : |a - prev| ≤ ε
    · refine ⟨a, fun p hp => ?_, h1, h3 hc⟩
      obtain ⟨q, rfl⟩ : ∃ q, p = q + 1 := ⟨p - 1, by omega⟩
      rw [newtonLoop, abs_ite, if_neg (by simpa using hc)]
    · have hup := step_above hx (show 0 < a by linarith)
      have hha := step_half hx h1
      obtain ⟨r, hr, hr1, hr2⟩ := ih (1 / 2 * (a + x / a)) a hup (by rw [pow_succ] at h2; linarith) (by
        intro h
        have := (abs_le.1 h).1
        linarith)
      refine ⟨r, fun p hp => ?_, hr1, hr2⟩
      obtain ⟨q, rfl⟩ : ∃ q, p = q + 1 := ⟨p - 1, by omega⟩
      rw [newtonLoop, abs_ite, if_pos (by simpa using hc)]
      exact hr q (by omega)

end Newton

open Newton

/-- For arguments above the tolerance: the loop ends after finitely many passes, and the result is at least the root and exceeds it by at most the
tolerance. Missing: smaller arguments. -/
theorem C140_float_partial {x ε : ℝ} (hε : 0 < ε) (hx : ε < x) :
    ∃ r N, (∀ passes, N ≤ passes → floatSqrt x ε passes = .ok (some r)) ∧ √x ≤ r ∧ r - √x ≤ ε := by
  have hx0 : 0 < x := by linarith
  have hs : √x * √x = x := Real.mul_self_sqrt hx0.le
  have h0 : 0 < √x := Real.sqrt_pos.2 hx0
  have hup := step_above hx0 hx0
  obtain ⟨n, hn⟩ := pow_unbounded_of_one_lt ((1 / 2 * (x + x / x) - √x) / ε) (by norm_num : (1 : ℝ) < 2)
  rw [div_lt_iff₀ hε] at hn
  obtain ⟨r, hr, hr1, hr2⟩ := loop_ends hx0 hε n (1 / 2 * (x + x / x)) x hup (by linarith) (by
    intro h
    have hxx : x / x = 1 := div_self hx0.ne'
    rw [hxx] at h ⊢
    by_cases h1 : x ≤ 1
    · have hsx : √x ≤ 1 := Real.sqrt_le_one.2 h1
      have := (abs_le.1 h).2
      nlinarith
    · have hsx : 1 ≤ √x := Real.one_le_sqrt.2 (by linarith)
      have := (abs_le.1 h).1
      nlinarith)
  refine ⟨r, n + 3, fun p hp => ?_, hr1, hr2⟩
  obtain ⟨q, rfl⟩ : ∃ q, p = q + 1 := ⟨p - 1, by omega⟩
  rw [floatSqrt, if_pos hx0.le, newtonLoop, abs_ite, if_pos]
  · exact hr q (by omega)
  · rw [sub_zero, abs_of_pos hx0]; exact hx

/-- The root of zero is zero, and negative numbers have none. -/
theorem C140_float_special {ε : ℝ} (hε : 0 < ε) {passes : Nat} (hp : 0 < passes) :
    floatSqrt 0 ε passes = .ok (some 0) ∧ ∀ x < 0, floatSqrt x ε passes = .ok none := by
  obtain ⟨q, rfl⟩ : ∃ q, passes = q + 1 := ⟨passes - 1, by omega⟩
  refine ⟨?_, fun x hx => ?_⟩
  · rw [floatSqrt, if_pos le_rfl, newtonLoop, if_neg]
    simp [hε.le]
  · rw [floatSqrt, if_neg (not_le.2 hx)]

/-- Violated for small arguments: up to the tolerance the argument itself is returned, whatever its root is. The root of the tolerance is
missed by more than the tolerance. -/
theorem C140_violated_small {ε : ℝ} (hε : 0 < ε) (hs : ε < 1 / 4) {passes : Nat} (hp : 0 < passes) :
    (∀ x, 0 ≤ x → x ≤ ε → floatSqrt x ε passes = .ok (some x)) ∧ √ε - ε > ε := by
  obtain ⟨q, rfl⟩ : ∃ q, passes = q + 1 := ⟨passes - 1, by omega⟩
  refine ⟨fun x h0 hx => ?_, ?_⟩
  · rw [floatSqrt, if_pos h0, newtonLoop, abs_ite, if_neg]
    rw [sub_zero, abs_of_nonneg h0]
    exact not_lt.2 hx
  · have : 2 * ε < √ε := by
      apply Real.lt_sqrt_of_sq_lt
      nlinarith
    linarith

/-! ### Integers -/

theorem heronLoop_spec {limit x : Nat} (hx : 2 ≤ x) (hl : x ≤ limit) (h4 : 4 ≤ limit) :
    ∀ x0, 1 ≤ x0 → (x0 = 1 → x ≤ 3) → x0 ≤ x / 2 → x < (x0 + 1) * (x0 + 1) →
      ∃ r, heronLoop limit x x0 = .ok r ∧ r * r ≤ x ∧ x < (r + 1) * (r + 1) := by
  intro x0
  induction x0 using Nat.strong_induction_on with
  | _ x0 ih =>
    intro h1 h2 h3 h6
    have hsum : x0 + x / x0 ≤ limit := by
      by_cases h : x0 = 1
      · subst h; have := h2 rfl; simp; omega
      · have : x / x0 ≤ x / 2 := Nat.div_le_div_left (by omega) (by omega)
        omega
    have hq1 : x0 * (x / x0) ≤ x := Nat.mul_div_le _ _
    have hq2 : x < x0 * (x / x0 + 1) := Nat.lt_mul_div_succ x (by omega)
    rw [heronLoop]
    have hstep : heronStep limit x x0 = .ok ((x0 + x / x0) / 2) := by
      rw [heronStep, if_neg (by omega), if_neg (by omega)]
    rw [hstep]
    dsimp only
    have hge : 2 ≤ x / x0 := by
      rw [Nat.le_div_iff_mul_le (by omega)]; omega
    generalize x / x0 = q at *
    by_cases hlt : (x0 + q) / 2 < x0
    · rw [dif_pos hlt]
      refine ih _ hlt (by omega) (fun he => h2 (by omega)) (by omega) ?_
      have h7 : x0 + q + 1 ≤ 2 * ((x0 + q) / 2 + 1) := by omega
      generalize (x0 + q) / 2 + 1 = m at *
      have h8 : (x0 + q + 1) * (x0 + q + 1) ≤ 2 * m * (2 * m) := Nat.mul_le_mul h7 h7
      zify at *
      nlinarith [sq_nonneg ((x0 : Int) - (q + 1))]
    · rw [dif_neg hlt]
      refine ⟨x0, rfl, ?_, h6⟩
      have : x0 ≤ q := by omega
      exact le_trans (Nat.mul_le_mul_left _ this) hq1

/-- The integer square root is the largest integer whose square is not larger; nothing overflows and no division by zero happens. -/
theorem C140_integer {limit : Nat} (h4 : 4 ≤ limit) {x : Int} (h0 : 0 ≤ x) (hl : x ≤ limit) :
    ∃ r : Nat, intSqrt limit x = .ok r ∧ (r : Int) * r ≤ x ∧ x < (r + 1 : Int) * (r + 1) := by
  obtain ⟨n, rfl⟩ := Int.eq_ofNat_of_zero_le h0
  have hln : n ≤ limit := by exact_mod_cast hl
  by_cases h1 : n ≤ 1
  · refine ⟨n, ?_, ?_, ?_⟩
    · rw [intSqrt, if_pos h0, if_pos (by exact_mod_cast h1)]; simp
    · have : n = 0 ∨ n = 1 := by omega
      rcases this with rfl | rfl <;> simp
    · have : n = 0 ∨ n = 1 := by omega
      rcases this with rfl | rfl <;> simp
  · have : n < (n / 2 + 1) * (n / 2 + 1) := by
      have h2 : n ≤ 2 * (n / 2) + 1 := by omega
      have h3 : 1 ≤ n / 2 := by omega
      nlinarith
    obtain ⟨r, hr, hr1, hr2⟩ := heronLoop_spec (x := n) (by omega) hln h4 (n / 2) (by omega) (by omega) le_rfl this
    refine ⟨r, ?_, by exact_mod_cast hr1, by exact_mod_cast hr2⟩
    rw [intSqrt, if_pos h0, if_neg (by exact_mod_cast h1)]
    simpa using hr

/-- Negative numbers are refused. -/
theorem C140_negative (limit : Nat) {x : Int} (h : x < 0) : intSqrt limit x = .throws := by rw [intSqrt, if_neg (not_le.2 h)]

/-- The largest `int` and a small tolerance meet the hypotheses. -/
example : 4 ≤ 2147483647 ∧ (0 : Int) ≤ 2147483647 ∧ (2147483647 : Int) ≤ (2147483647 : Nat) ∧ (0 : ℝ) < 1 / 10 ∧ (1 / 10 : ℝ) < 2 ∧ (1 / 10 : ℝ) < 1 / 4 := by
  refine ⟨by decide, by decide, by decide, ?_, ?_, ?_⟩ <;> norm_num

example : intSqrt 127 99 = .ok 9 := by decide +kernel

end Verif
