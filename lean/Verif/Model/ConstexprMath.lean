import Mathlib.Data.Real.Basic
import Verif.Model.Outcome
/-!
# Square roots at compile time

/repo/src/autopas/utils/ConstexprMath.h. Floating point numbers are real numbers; infinite arguments (which yield NaN) are left out.
-/
namespace Verif

/-- The loop of ConstexprMath.h:27-31 for at most the given number of passes. -/
noncomputable def newtonLoop (x epsilon : ℝ) : Nat → ℝ → ℝ → Outcome (Option ℝ)
  | 0, _, _ => .diverges
  | passes + 1, xn, prev =>
    if (if xn - prev < 0 then prev - xn else xn - prev) > epsilon then newtonLoop x epsilon passes (1 / 2 * (xn + x / xn)) xn
    else .ok (some xn)

/-- `ConstexprMath::sqrt(x, epsilon)` for floating point types, ConstexprMath.h:21-36, cut off after the given number of passes; NaN is `none`. -/
noncomputable def floatSqrt (x epsilon : ℝ) (passes : Nat) : Outcome (Option ℝ) :=
  if 0 ≤ x then newtonLoop x epsilon passes x 0 else .ok none

/-- `(x0 + x / x0) / 2` in a type with the given largest value: division by zero and overflow are undefined. -/
def heronStep (limit x x0 : Nat) : Outcome Nat :=
  if x0 = 0 then .ub else if x0 + x / x0 > limit then .ub else .ok ((x0 + x / x0) / 2)

/-- The loop of ConstexprMath.h:53-57 with the current `x0`, together with the preceding computation of `x1`. -/
def heronLoop (limit x x0 : Nat) : Outcome Nat :=
  match heronStep limit x x0 with
  | .ok x1 => if _h : x1 < x0 then heronLoop limit x x1 else .ok x0
  | .ub => .ub
  | .throws => .throws
  | .diverges => .diverges
termination_by x0

/-- `ConstexprMath::sqrt(x)` for integral types with the given largest value, ConstexprMath.h:44-61. -/
def intSqrt (limit : Nat) (x : Int) : Outcome Nat :=
  if 0 ≤ x then
    if x ≤ 1 then .ok x.toNat else heronLoop limit x.toNat (x.toNat / 2)
  else .throws

end Verif
