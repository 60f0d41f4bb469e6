import Verif.Model.PredictiveTuning
import Mathlib.Algebra.Polynomial.Eval.Degree
import Mathlib.Data.Rat.Floor

/-! What predictions are meant to be, independent of how they are computed. -/
namespace Verif.Spec
open Polynomial

/-- The straight line through two measurements. -/
def lineThrough (e f : Evidence) (x : ℚ) : ℚ := e.value + (f.value - e.value) / (f.iteration - e.iteration) * (x - e.iteration)

/-- The sum of the squared distances between measurements and the line `a + b · iteration`. -/
def squaredError (pts : List Evidence) (a b : ℚ) : ℚ := (pts.map fun e => ((e.value : ℚ) - (a + b * e.iteration)) ^ 2).sum

/-- The line `a + b · iteration` fits the measurements at least as well as every other line. -/
def IsLeastSquares (pts : List Evidence) (a b : ℚ) : Prop := ∀ a' b', squaredError pts a b ≤ squaredError pts a' b'

/-- A polynomial of degree less than the number of points that goes through all of them. -/
def Interpolates (pts : List Evidence) (p : ℚ[X]) : Prop :=
  p.degree < pts.length ∧ ∀ e ∈ pts, p.eval (e.iteration : ℚ) = e.value

/-- `v` is the integer prediction for the exact value `x`: within `tol`, or the placeholder 1 for negative values. -/
def Predicts (tol : ℚ) (v : Int) (x : ℚ) : Prop := (0 ≤ v ∧ |(v : ℚ) - x| < tol) ∨ (v = 1 ∧ x < tol - 1)

end Verif.Spec

namespace Verif.PT
variable {C : Type} [DecidableEq C]

/-- The prediction for a configuration: nothing without evidence or if the method returns the error value. -/
def predictionOf (c : Cfg) (iteration ph : Nat) (ev : EvidenceMap C) (params : C → List Rat) (conf : C) : Option Int :=
  if getEvidence ev conf = [] then none
  else match predict c iteration ph (params conf) (getEvidence ev conf) with
    | .ok r => if r.value = errorValue then none else some (max 0 r.value)
    | _ => none

/-- The method asks for more measurements of the configuration. -/
def needsMore (c : Cfg) (iteration ph : Nat) (ev : EvidenceMap C) (params : C → List Rat) (conf : C) : Prop :=
  getEvidence ev conf ≠ [] ∧ ∃ r, predict c iteration ph (params conf) (getEvidence ev conf) = .ok r ∧ r.tooLong = true

/-- The configuration has evidence, but none of the last `max` phases. -/
def Untested (c : Cfg) (ph : Nat) (ev : EvidenceMap C) (conf : C) : Prop :=
  ∃ e, (getEvidence ev conf).getLast? = some e ∧ c.maxTuningPhasesWithoutTest ≤ subSize ph e.tuningPhase

end Verif.PT
