import Verif.Model.AutoTuner
import Verif.Model.Checkpoint
import Mathlib.Algebra.BigOperators.Group.List.Basic
/-!
# Smoothing of measurements

/repo/src/autopas/tuning/utils/Smoothing.cpp. Doubles are rationals; a division of zero by zero gives NaN, which `std::lround` does not accept. Iteration
numbers are taken to be below 2⁶³, so that the conversions to `long` are exact.
-/
namespace Verif

/-- The tri-cube function, Smoothing.cpp:51-53, for a nonzero denominator. -/
def tricube (residual maxDist : Nat) : Rat := (1 - ((residual : Rat) / (maxDist : Rat)) ^ 3) ^ 3

/-- A subtraction of `size_t`. -/
def subSize (a b : Nat) : Nat := (a + (2 ^ 64 - b % 2 ^ 64)) % 2 ^ 64

/-- `residual`, Smoothing.cpp:45. -/
def iterationDist (a b : Nat) : Nat := ((a : Int) - (b : Int)).natAbs

/-- `calculateWeightsSimple`, Smoothing.cpp:23-65, for a nonzero `maxDistFromIntervalEdge`: the weights of the given neighbours (the points from
`firstIndex` on) and whether to fit. `std::abs` of a difference is the residual; weights of points further away stay 0. -/
def calculateWeights (neighbors : List Evidence) (xi maxDist : Nat) : List Rat × Bool :=
  let weights := neighbors.map fun p => if iterationDist xi p.iteration ≤ maxDist then tricube (iterationDist xi p.iteration) maxDist else 0
  let sumOfWeights := weights.sum
  if isNearAbs sumOfWeights 0 (1 / 10 ^ 12) then (weights, false) else (weights.map fun w => w / sumOfWeights, true)

/-- `calculateYFitSimple`, Smoothing.cpp:79-115. `pointsRange` comes from all points, not only the neighbours. -/
def calculateYFit (neighbors : List Evidence) (weights : List Rat) (pointsRange : Rat) : Rat :=
  let xs := neighbors.map fun p => (p.iteration : Rat)
  let ys := neighbors.map fun p => (p.value : Rat)
  let sumWeightedX := (List.zipWith (· * ·) weights xs).sum
  let deviations := xs.map fun x => x - sumWeightedX
  let weightedDistFromCenterXSquare := (List.zipWith (fun w d => w * d * d) weights deviations).sum
  let projections :=
    if weightedDistFromCenterXSquare > 1 / 10 ^ 6 * pointsRange * pointsRange then
      let distDivSqDev := deviations.getLastD 0 / weightedDistFromCenterXSquare
      List.zipWith (fun w d => w * (1 + distDivSqDev * d)) weights deviations
    else weights
  (List.zipWith (· * ·) projections ys).sum

/-- `std::lround`: ties away from zero; unspecified if the result is not a `long`. -/
def lround (q : Rat) : Outcome Int :=
  let r := roundHalfAway q
  if -2 ^ 63 ≤ r ∧ r < 2 ^ 63 then .ok r else .ub

/-- `smoothLastPoint`, Smoothing.cpp:117-150. The case of no points is asked for after `points.back()` in the case of too few. If
`maxDistFromIntervalEdge` is 0 the weight of the last point is 0/0, the sum is NaN, which is not near 0, and the fit is NaN. -/
def smoothLastPoint (points : List Evidence) (pointsPerEstimation : Nat) : Outcome Int :=
  if pointsPerEstimation < 2 ∨ points.length = 1 then
    match points.getLast? with
    | some p => .ok p.value
    | none => .ub
  else
    match points.head?, points.getLast? with
    | some front, some back =>
      let k := min pointsPerEstimation points.length
      let neighbors := points.drop (points.length - k)
      let maxDist := subSize back.iteration ((neighbors.head?.getD back).iteration)
      if maxDist = 0 then .ub
      else
        let (weights, fitOk) := calculateWeights neighbors back.iteration maxDist
        if fitOk then lround (calculateYFit neighbors weights (subSize back.iteration front.iteration : Rat)) else .ok back.value
    | _, _ => .ok 0

/-- What `AutoTuner::addMeasurement` does to the evidence of a configuration with smoothing enabled, AutoTuner.cpp:245-256. -/
def addSmoothed (stored : List Evidence) (new : Evidence) : Outcome (List Evidence) :=
  (smoothLastPoint (stored ++ [new]) 5).bind fun v => .ok (stored ++ [{ new with value := min new.value v }])

/-- The evidence of a configuration after any number of measurements. -/
def smoothedHistory : List Evidence → List Evidence → Outcome (List Evidence)
  | stored, [] => .ok stored
  | stored, e :: es => (addSmoothed stored e).bind fun s => smoothedHistory s es

end Verif
