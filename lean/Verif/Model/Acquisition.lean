import Verif.Model.Outcome
import Verif.Model.GaussianProcess
import Mathlib.Probability.Distributions.Gaussian.Real
/-!
Model of /repo/src/autopas/tuning/tuningStrategy/GaussianModel/AcquisitionFunction.cpp and of the normal distribution in /repo/src/autopas/utils/Math.cpp, with real numbers instead of
doubles.
-/
namespace Verif

/-- `AcquisitionFunctionOption::Value`, /repo/src/autopas/options/AcquisitionFunctionOption.h:23-30. -/
inductive AcqFunction
  | upperConfidenceBound
  | mean
  | variance
  | probabilityOfImprovement
  | expectedImprovement
deriving DecidableEq

/-- `std::erfc`: the complementary error function. -/
noncomputable def erfcReal (x : ℝ) : ℝ := 2 / Real.sqrt Real.pi * ∫ t in Set.Ioi x, Real.exp (-t ^ 2)

/-- `normalPDF`, Math.cpp:11-14. -/
noncomputable def normalPDF (x : ℝ) : ℝ := 1 / Real.sqrt (2 * Real.pi) * Real.exp (-x * x / 2)

/-- `normalCDF`, Math.cpp:16-19. -/
noncomputable def normalCDF (x : ℝ) : ℝ := erfcReal (-1 / Real.sqrt 2 * x) / 2

/-- `calcAcquisition`, AcquisitionFunction.cpp:12-39. -/
noncomputable def calcAcquisition (af : AcqFunction) (mean var currentMax : ℝ) : ℝ :=
  match af with
  | .upperConfidenceBound => mean + 2 * Real.sqrt var
  | .mean => mean
  | .variance => var
  | .probabilityOfImprovement => normalCDF ((mean - currentMax) / Real.sqrt var)
  | .expectedImprovement =>
    let stddev := Real.sqrt var
    let maxNormed := (mean - currentMax) / stddev
    let cdf := normalCDF maxNormed
    let pdf := normalPDF maxNormed
    (mean - currentMax) * cdf + stddev * pdf

/-- `predictOutputPDF`, /repo/src/autopas/tuning/tuningStrategy/GaussianModel/GaussianProcess.cpp:133-137, given the predicted mean and variance. -/
noncomputable def outputPDF (mean var output : ℝ) : ℝ :=
  let stddev := Real.sqrt var
  normalPDF ((mean - output) / stddev) / stddev

/-- `GaussianProcess::calcAcquisition`, GaussianProcess.cpp:146-149. -/
noncomputable def GaussProc.calcAcquisition {d : ℕ} (g : GaussProc d) (af : AcqFunction) (x : Fin d → ℝ) : ℝ :=
  Verif.calcAcquisition af (g.predictMean x) (g.predictVar x) g.evidenceMax

/-- The loop of `sampleAquisitionMax`, GaussianProcess.cpp:156-164. -/
noncomputable def acquisitionMaxLoop {X : Type} (val : X → ℝ) : X → ℝ → List X → X
  | best, _, [] => best
  | best, bestVal, x :: xs => if val x > bestVal then acquisitionMaxLoop val x (val x) xs else acquisitionMaxLoop val best bestVal xs

/-- `sampleAquisitionMax`, GaussianProcess.cpp:151-167; without samples, `samples[0]` is undefined. -/
noncomputable def sampleAcquisitionMax {X : Type} (val : X → ℝ) : List X → Outcome X
  | [] => .ub
  | x :: xs => .ok (acquisitionMaxLoop val x (val x) xs)

end Verif
