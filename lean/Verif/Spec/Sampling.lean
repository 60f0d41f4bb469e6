import Mathlib.Algebra.Order.Ring.Rat
/-! Samples. -/
namespace Verif.Spec

/-- Only elements of the pool, and each as often as the others, give or take one. -/
def BalancedSample {α : Type} [DecidableEq α] (pool sample : List α) : Prop :=
  (∀ x ∈ sample, x ∈ pool) ∧
    ∀ x ∈ pool, sample.length / pool.length ≤ sample.count x ∧ sample.count x ≤ (sample.length + pool.length - 1) / pool.length

/-- `n` evenly spaced numbers from `lo` to `hi`, in any order; the middle if `n = 1`. -/
def EvenlySpaced (lo hi : Rat) (n : Nat) (sample : List Rat) : Prop :=
  (n = 1 → sample = [(lo + hi) / 2]) ∧
    (n ≠ 1 → sample.Perm ((List.range n).map fun i : Nat => lo + (hi - lo) * (i : Rat) / ((n : Rat) - 1)))

end Verif.Spec
