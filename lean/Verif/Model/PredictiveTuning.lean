import Verif.Model.AutoTuner
import Mathlib.Data.List.Sort
import Mathlib.Data.Rat.Floor

/-!
# Predictive tuning: /repo/src/autopas/tuning/tuningStrategy/PredictiveTuning.{h,cpp}

* `double` is `Rat`: no rounding, but the largest double still limits `safeMul`, and converting to `long` outside its range is undefined behaviour. A division by
  zero is reported as undefined behaviour, too: its result, infinite or NaN, would be converted to `long` (for the Newton method: could be).
* `long` is `Int`; the sums of the linear regression that the code does not guard (`timeSum`, `iterationSum`, `iterationSquareSum` and the numerator,
  PredictiveTuning.cpp:164-166, 178) are taken without overflow. `size_t` is `Nat`; differences of `size_t` wrap around.
* `_predictionFunctionParameters` is a function from configurations, giving `[]` for absent ones; `_tooLongNotTestedSearchSpace` is a list without duplicates.
* Logging is left out.
-/
namespace Verif.PT

/-- `ExtrapolationMethodOption`. -/
inductive Method
  | linePrediction | linearRegression | newton | lastResult
deriving DecidableEq, Repr

/-- The parameters of the constructor, PredictiveTuning.cpp:18-41. -/
structure Cfg where
  relativeOptimumRange : Rat
  maxTuningPhasesWithoutTest : Nat
  testsUntilFirstPrediction : Nat
  method : Method

/-- `_minNumberOfEvidence`, PredictiveTuning.cpp:24-33. -/
def Cfg.minEvidence (c : Cfg) : Nat :=
  match c.method with
  | .linePrediction => 2
  | .lastResult => 1
  | _ => c.testsUntilFirstPrediction

/-- `std::numeric_limits<long>::min()`. -/
def longMin : Int := -2 ^ 63

/-- `std::numeric_limits<double>::max()`. -/
def doubleMax : Rat := 2 ^ 1024 - 2 ^ 971

/-- `_predictionErrorValue`, `_predictionOverflowValue`, `_predictionUnderflowValue`, PredictiveTuning.h:117-127. -/
def errorValue : Int := longMax
def overflowValue : Int := longMax - 1
def underflowValue : Int := 1

/-- `static_cast<long>(x)` of a `double`: towards zero; undefined outside the range of `long`. -/
def toLong (x : Rat) : Outcome Int :=
  if longMin ≤ x.num.tdiv x.den ∧ x.num.tdiv x.den ≤ longMax then .ok (x.num.tdiv x.den) else .ub

/-- `safeAdd` of `long`s, /repo/src/autopas/utils/Math.h:30-45. -/
def safeAdd (a b valUnderflow valOverflow : Int) : Int :=
  if longMin ≤ a + b ∧ a + b ≤ longMax then a + b else if a < 0 ∧ b < 0 then valUnderflow else valOverflow

/-- `safeMul` of `long`s with the default limits, Math.h:135-150. -/
def safeMul (a b : Int) : Int :=
  if longMin ≤ a * b ∧ a * b ≤ longMax then a * b else if (a < 0) ≠ (b < 0) then longMin else longMax

/-- `safeMul` of `double`s, Math.h:164-176. -/
def safeMulD (a b : Rat) : Rat :=
  if doubleMax < a * b then doubleMax else if a * b < -doubleMax then -doubleMax else a * b

/-- The difference of two `size_t`s. -/
def subSize (a b : Nat) : Nat := (a + 2 ^ 64 - b) % 2 ^ 64

/-- What the four prediction functions do: return a value, leave behind new function parameters, and put the configuration into `_tooLongNotTestedSearchSpace` or
not. -/
structure Result where
  value : Int
  params : List Rat
  tooLong : Bool
deriving DecidableEq

/-- `evidenceVec.back().tuningPhase != (tuningPhase - 1)` for `size_t`s. -/
def notInLastPhase (e : Evidence) (tuningPhase : Nat) : Bool := decide (e.tuningPhase + 1 ≠ tuningPhase)

/-- `prediction == max ? overflow : static_cast<long>(prediction)`, PredictiveTuning.cpp:95-96, 141-142. -/
def castChecked (prediction : Rat) : Outcome Int :=
  if prediction = doubleMax then .ok overflowValue else toLong prediction

/-- `prediction < 0 ? _predictionUnderflowValue : prediction`. -/
def underflowChecked (prediction : Int) : Int := if prediction < 0 then underflowValue else prediction

/-- `linePrediction`, PredictiveTuning.cpp:85-128. `back()` of an empty vector is undefined. -/
def linePrediction (iteration tuningPhase : Nat) (params : List Rat) (ev : List Evidence) : Outcome Result :=
  match ev.getLast? with
  | none => .ub
  | some last =>
    if notInLastPhase last tuningPhase = true ∧ params.length = 2 then
      let delta := subSize iteration last.iteration
      (castChecked (safeMulD (params.getD 0 0) delta + params.getD 1 0)).bind fun v => .ok ⟨v, params, false⟩
    else if ev.length ≥ 2 then
      match ev[ev.length - 1]?, ev[ev.length - 2]? with
      | some e1, some e2 =>
        if subSize e1.iteration e2.iteration = 0 then .ub
        else
          let gradient : Rat := ((e1.value - e2.value : Int) : Rat) / (subSize e1.iteration e2.iteration : Nat)
          let delta : Rat := (iteration : Rat) - e1.iteration
          (toLong (safeMulD gradient delta)).bind fun change =>
            let prediction := safeAdd e1.value change underflowValue overflowValue
            .ok ⟨underflowChecked prediction, [gradient, e1.value], false⟩
      | _, _ => .ub
    else .ok ⟨errorValue, params, true⟩

/-- The loop of `linearRegression`, PredictiveTuning.cpp:155-167: `iterationMultTime`, `iterationSum`, `iterationSquareSum`, `timeSum`; `none` after an overflow. -/
def regressionSums : List Evidence → Int → Nat → Nat → Int → Option (Int × Nat × Nat × Int)
  | [], m, s, q, t => some (m, s, q, t)
  | e :: es, m, s, q, t =>
    let m' := safeAdd m (safeMul e.iteration e.value) longMin longMax
    if m' = longMax then none
    else regressionSums es m' (s + e.iteration) (q + e.iteration * e.iteration) (t + e.value)

/-- `linearRegression`, PredictiveTuning.cpp:130-205; `n` is `_minNumberOfEvidence`. -/
def linearRegression (n iteration tuningPhase : Nat) (params : List Rat) (ev : List Evidence) : Outcome Result :=
  match ev.getLast? with
  | none => .ub
  | some last =>
    if notInLastPhase last tuningPhase = true ∧ params.length = 2 then
      (castChecked (safeMulD (params.getD 0 0) iteration + params.getD 1 0)).bind fun v => .ok ⟨v, params, false⟩
    else if ev.length ≥ n then
      match regressionSums (ev.drop (ev.length - n)) 0 0 0 0 with
      | none => .ok ⟨overflowValue, params, false⟩
      | some (iterationMultTime, iterationSum, iterationSquareSum, timeSum) =>
        if n = 0 then .ub
        else
          let iterationMeanValue : Rat := (iterationSum : Rat) / n
          let timeMeanValue : Int := timeSum.tdiv n
          let numerator : Rat := ((iterationMultTime - iterationSum * timeMeanValue : Int) : Rat)
          let denominator : Rat := (iterationSquareSum : Rat) - iterationSum * iterationMeanValue
          if denominator = 0 then .ub
          else
            let gradient := numerator / denominator
            (toLong (safeMulD gradient ((iteration : Rat) - iterationMeanValue))).bind fun change =>
              let prediction := safeAdd change timeMeanValue underflowValue overflowValue
              .ok ⟨underflowChecked prediction, [gradient, (timeMeanValue : Rat) - gradient * iterationMeanValue], false⟩
    else .ok ⟨errorValue, params, true⟩

/-- The inner loop over `j` when a Newton polynomial is evaluated, PredictiveTuning.cpp:219-229 and 281-290: multiplies by `iteration - node` for all the given
nodes; `none` after an overflow. -/
def newtonTerm (iteration : Nat) : List Nat → Rat → Option Rat
  | [], v => some v
  | node :: nodes, v =>
    let factor : Rat := (subSize iteration node : Nat)
    if v > 0 ∧ factor > doubleMax / v then none else newtonTerm iteration nodes (v * factor)

/-- The loop over `i` when the function is reused, PredictiveTuning.cpp:217-241, from `i` on. `none` in the result: overflow. A node beyond the evidence vector is
undefined behaviour. -/
def newtonReuse (iteration n : Nat) (ev : List Evidence) : List Rat → Nat → Int → Outcome (Option Int)
  | [], _, prediction => .ok (some prediction)
  | coeff :: rest, i, prediction =>
    let nodes := (List.range i).map fun j => ev[(subSize (ev.length - 1) n + j) % 2 ^ 64]?
    if nodes.any Option.isNone then .ub
    else match newtonTerm iteration (nodes.map fun e => (e.map Evidence.iteration).getD 0) coeff with
      | none => .ok none
      | some v =>
        (toLong v).bind fun w =>
          if w > longMax - prediction then .ok none
          else newtonReuse iteration n ev rest (i + 1) (prediction + w)

/-- `interimCalculation[i][j]`, PredictiveTuning.cpp:258-276: the table of divided differences of the points `x`, `y`. -/
def dividedDifference (x : Nat → Nat) (y : Nat → Rat) : Nat → Nat → Rat
  | 0, j => y j
  | i + 1, j => (dividedDifference x y i (j + 1) - dividedDifference x y i j) / (subSize (x (j + i + 1)) (x j) : Nat)

/-- The loop over `i` after the coefficients have been computed, PredictiveTuning.cpp:278-303, from `i` on. `prediction += interimValue` converts the sum of a `long`
and a `double` to `long`. -/
def newtonEval (iteration : Nat) (x : Nat → Nat) : List Rat → Nat → Int → Outcome (Option Int)
  | [], _, prediction => .ok (some prediction)
  | coeff :: rest, i, prediction =>
    match newtonTerm iteration ((List.range i).map x) coeff with
    | none => .ok none
    | some v =>
      if v > (longMax : Rat) then .ok none
      else
        (toLong v).bind fun w =>
          if w > longMax - prediction then .ok none
          else (toLong (prediction + v)).bind fun p => newtonEval iteration x rest (i + 1) p

/-- PredictiveTuning.cpp:243-249 and 307-313. -/
def newtonChecked : Option Int → Int
  | none => overflowValue
  | some p => underflowChecked p

/-- `newtonPolynomial`, PredictiveTuning.cpp:207-320. -/
def newtonPolynomial (n iteration tuningPhase : Nat) (params : List Rat) (ev : List Evidence) : Outcome Result :=
  match ev.getLast? with
  | none => .ub
  | some last =>
    if notInLastPhase last tuningPhase = true ∧ params.length = n then
      (newtonReuse iteration n ev params 0 0).bind fun p => .ok ⟨newtonChecked p, params, false⟩
    else if ev.length ≥ n then
      let x : Nat → Nat := fun j => ((ev[ev.length - n + j]?).map Evidence.iteration).getD 0
      let y : Nat → Rat := fun j => (((ev[ev.length - n + j]?).map Evidence.value).getD 0 : Int)
      if (List.range n).any fun i => decide (i ≠ 0) && (List.range (n - i)).any fun j => decide (subSize (x (j + i)) (x j) = 0) then .ub
      else
        let coefficients := (List.range n).map fun i => dividedDifference x y i 0
        (newtonEval iteration x coefficients 0 0).bind fun p => .ok ⟨newtonChecked p, coefficients, false⟩
    else .ok ⟨errorValue, params, true⟩

/-- `lastResult`, PredictiveTuning.cpp:322-349. -/
def lastResult (tuningPhase : Nat) (params : List Rat) (ev : List Evidence) : Outcome Result :=
  match ev.getLast? with
  | none => .ub
  | some last =>
    if notInLastPhase last tuningPhase = true ∧ params.length = 1 then (toLong (params.getD 0 0)).bind fun v => .ok ⟨v, params, false⟩
    else if ev.length ≥ 1 then .ok ⟨last.value, [(last.value : Rat)], false⟩
    else .ok ⟨errorValue, params, true⟩

/-- The `switch`, PredictiveTuning.cpp:54-73. -/
def predict (c : Cfg) (iteration tuningPhase : Nat) (params : List Rat) (ev : List Evidence) : Outcome Result :=
  match c.method with
  | .linePrediction => linePrediction iteration tuningPhase params ev
  | .linearRegression => linearRegression c.minEvidence iteration tuningPhase params ev
  | .newton => newtonPolynomial c.minEvidence iteration tuningPhase params ev
  | .lastResult => lastResult tuningPhase params ev

variable {C : Type} [DecidableEq C]

/-- `_predictionFunctionParameters` and `_tooLongNotTestedSearchSpace`. -/
structure State (C : Type) where
  params : C → List Rat
  tooLong : List C

/-- `_tooLongNotTestedSearchSpace.emplace`. -/
def State.watch (s : State C) (c : C) : State C := if c ∈ s.tooLong then s else { s with tooLong := s.tooLong ++ [c] }

/-- `calculatePredictions`, PredictiveTuning.cpp:43-83, for a queue without duplicates. -/
def calculatePredictions (c : Cfg) (iteration tuningPhase : Nat) (ev : EvidenceMap C) : List C → State C → Outcome (List (C × Int) × State C)
  | [], s => .ok ([], s)
  | conf :: confs, s =>
    if (getEvidence ev conf).isEmpty then calculatePredictions c iteration tuningPhase ev confs s
    else
      (predict c iteration tuningPhase (s.params conf) (getEvidence ev conf)).bind fun r =>
        let s := { s with params := Function.update s.params conf r.params }
        let s := if r.tooLong then s.watch conf else s
        (calculatePredictions c iteration tuningPhase ev confs s).bind fun rest =>
          .ok (if r.value ≠ errorValue then (conf, max 0 r.value) :: rest.1 else rest.1, rest.2)

/-- The first loop of `reset`, PredictiveTuning.cpp:360-369. -/
def collectUntested (c : Cfg) (tuningPhase : Nat) (ev : EvidenceMap C) (queue : List C) (s : State C) : State C :=
  queue.foldl (fun s conf =>
    match (getEvidence ev conf).getLast? with
    | none => s
    | some e => if subSize tuningPhase e.tuningPhase ≥ c.maxTuningPhasesWithoutTest then s.watch conf else s) s

/-- `reset`, PredictiveTuning.cpp:357-418; the result is the new queue. The predictions are kept in an `unordered_map` and sorted with `std::sort`, which leaves the
order of equal elements open: `order` stands for the order before a stable sort. `setOrder` is the order of the configurations in the `std::set`. -/
def reset (c : Cfg) (order setOrder : List C → List C) (iteration tuningPhase : Nat) (queue : List C) (ev : EvidenceMap C) (s : State C) :
    Outcome (List C × State C) :=
  let s := collectUntested c tuningPhase ev queue s
  (calculatePredictions c iteration tuningPhase ev queue s).bind fun r =>
    let predictions := r.1
    match (predictions.map Prod.snd).min? with
    | none => .ok (queue, r.2)
    | some bestPrediction =>
      (toLong (c.relativeOptimumRange * bestPrediction)).bind fun bestAcceptable =>
        let value := fun conf => ((predictions.find? fun p => decide (p.1 = conf)).map Prod.snd).getD 0
        let worthy := (order ((predictions.filter fun p => decide (p.2 ≤ bestAcceptable)).map Prod.fst)).insertionSort fun a b => value a ≥ value b
        .ok ((setOrder r.2.tooLong).filter (fun conf => decide (conf ∉ worthy)) ++ worthy, r.2)

/-- `addEvidence`, PredictiveTuning.cpp:420-426. -/
def addEvidence (s : State C) (conf : C) : State C := { s with tooLong := s.tooLong.filter fun c => decide (c ≠ conf) }

/-- `rejectConfiguration`, PredictiveTuning.cpp:428-432. -/
def rejectConfiguration (s : State C) (conf : C) (indefinitely : Bool) : State C :=
  if indefinitely then { s with tooLong := s.tooLong.filter fun c => decide (c ≠ conf) } else s

end Verif.PT
