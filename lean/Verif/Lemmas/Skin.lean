import Verif.Spec.Geometry
import Mathlib.Tactic.Linarith
import Mathlib.Tactic.Ring
import Mathlib.Algebra.Order.Field.Basic
/-! Triangle inequality for squared distances. -/
namespace Verif
open Spec

theorem mink {a1 a2 a3 b1 b2 b3 A B : Rat} (hA : 0 ≤ A) (hB : 0 ≤ B) (ha : a1 ^ 2 + a2 ^ 2 + a3 ^ 2 ≤ A * A)
    (hb : b1 ^ 2 + b2 ^ 2 + b3 ^ 2 ≤ B * B) :
    (a1 + b1) ^ 2 + (a2 + b2) ^ 2 + (a3 + b3) ^ 2 ≤ (A + B) * (A + B) := by
  have cs : (a1 * b1 + a2 * b2 + a3 * b3) ^ 2 ≤ (a1 ^ 2 + a2 ^ 2 + a3 ^ 2) * (b1 ^ 2 + b2 ^ 2 + b3 ^ 2) := by
    nlinarith [sq_nonneg (a1 * b2 - a2 * b1), sq_nonneg (a1 * b3 - a3 * b1), sq_nonneg (a2 * b3 - a3 * b2)]
  have hdot : a1 * b1 + a2 * b2 + a3 * b3 ≤ A * B := by
    have h0 : 0 ≤ b1 ^ 2 + b2 ^ 2 + b3 ^ 2 := by positivity
    have h1 : (a1 ^ 2 + a2 ^ 2 + a3 ^ 2) * (b1 ^ 2 + b2 ^ 2 + b3 ^ 2) ≤ (A * A) * (B * B) :=
      mul_le_mul ha hb h0 (by positivity)
    have h2 : (a1 * b1 + a2 * b2 + a3 * b3) ^ 2 ≤ (A * B) ^ 2 := by nlinarith
    exact le_of_sq_le_sq h2 (by positivity) |> fun h => h
  nlinarith

theorem mink_lt {a1 a2 a3 b1 b2 b3 A B : Rat} (hA : 0 ≤ A) (hB : 0 ≤ B) (ha : a1 ^ 2 + a2 ^ 2 + a3 ^ 2 < A * A)
    (hb : b1 ^ 2 + b2 ^ 2 + b3 ^ 2 ≤ B * B) :
    (a1 + b1) ^ 2 + (a2 + b2) ^ 2 + (a3 + b3) ^ 2 < (A + B) * (A + B) := by
  have cs : (a1 * b1 + a2 * b2 + a3 * b3) ^ 2 ≤ (a1 ^ 2 + a2 ^ 2 + a3 ^ 2) * (b1 ^ 2 + b2 ^ 2 + b3 ^ 2) := by
    nlinarith [sq_nonneg (a1 * b2 - a2 * b1), sq_nonneg (a1 * b3 - a3 * b1), sq_nonneg (a2 * b3 - a3 * b2)]
  have hdot : a1 * b1 + a2 * b2 + a3 * b3 ≤ A * B := by
    have h0 : 0 ≤ b1 ^ 2 + b2 ^ 2 + b3 ^ 2 := by positivity
    have h1 : (a1 ^ 2 + a2 ^ 2 + a3 ^ 2) * (b1 ^ 2 + b2 ^ 2 + b3 ^ 2) ≤ (A * A) * (B * B) :=
      mul_le_mul ha.le hb h0 (by positivity)
    have h2 : (a1 * b1 + a2 * b2 + a3 * b3) ^ 2 ≤ (A * B) ^ 2 := by nlinarith
    exact le_of_sq_le_sq h2 (by positivity) |> fun h => h
  nlinarith

theorem distSq_triangle {p q r : V3 Rat} {A B : Rat} (hA : 0 ≤ A) (hB : 0 ≤ B) (h1 : distSq p q ≤ A * A)
    (h2 : distSq q r ≤ B * B) : distSq p r ≤ (A + B) * (A + B) := by
  unfold distSq at *
  have := mink hA hB h1 h2
  simpa [sub_add_sub_cancel] using this

theorem distSq_triangle_lt {p q r : V3 Rat} {A B : Rat} (hA : 0 ≤ A) (hB : 0 ≤ B) (h1 : distSq p q < A * A)
    (h2 : distSq q r ≤ B * B) : distSq p r < (A + B) * (A + B) := by
  unfold distSq at *
  have := mink_lt hA hB h1 h2
  simpa [sub_add_sub_cancel] using this

theorem distSq_symm (u v : V3 Rat) : distSq u v = distSq v u := by simp only [distSq]; ring

/-- Total displacement over `n` steps of length at most `s`. -/
theorem displacement {traj : Nat → V3 Rat} {s : Rat} (hs : 0 ≤ s) (hstep : ∀ t, distSq (traj t) (traj (t + 1)) ≤ s * s)
    (n : Nat) : distSq (traj 0) (traj n) ≤ (n * s) * (n * s) := by
  induction n with
  | zero => simp [distSq]
  | succ n ih =>
    have := distSq_triangle (mul_nonneg (Nat.cast_nonneg n) hs) hs ih (hstep n)
    push_cast
    rw [add_mul, one_mul]
    exact this

end Verif
