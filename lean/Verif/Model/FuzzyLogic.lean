import Mathlib.Algebra.Order.Field.Basic
import Verif.Model.Outcome
/-!
Model of the fuzzy logic that fuzzy tuning is built on.

Modelled: `MembershipFunction`s of `FuzzySetFactory`, `FuzzySet`, `FuzzyRule`, `FuzzyControlSystem`
(/repo/src/autopas/tuning/tuningStrategy/fuzzyTuning/fuzzyController/).

Simplifications: `double` is an ordered field `K` with an exponential function (`HasExp`), so there is no rounding, infinity or
NaN; linguistic terms (only used for output) are dropped; the base set of a linguistic variable carries the crisp set that
`LinguisticVariable::addLinguisticTerm` gives it.
-/
namespace Verif

/-- `std::exp`, with the facts about it that matter here. -/
class HasExp (K : Type) [Field K] [LinearOrder K] where
  exp : K → K
  exp_pos : ∀ x, 0 < exp x
  exp_zero : exp 0 = 1
  exp_mono : ∀ x y, x ≤ y → exp x ≤ exp y

/-- The membership functions of `FuzzySetFactory`, with their parameters. -/
inductive MembershipFn (K : Type)
  | triangle (min peak max : K)
  | trapezoid (min leftPeak rightPeak max : K)
  | gaussian (mean sigma : K)
  | sigmoid (center slope : K)
  | sigmoidFinite (lower center upper : K)
deriving DecidableEq, Repr

/-- `MembershipFunctionOption`. -/
inductive MembershipFnName
  | triangle | trapezoid | gaussian | sigmoid | sigmoidFinite
deriving DecidableEq, Repr

/-- The switch of `makeFuzzySet`, FuzzySetFactory.cpp:16-60: a wrong number of parameters throws. -/
def makeMembershipFn {K : Type} : MembershipFnName → List K → Outcome (MembershipFn K)
  | .triangle, [a, b, c] => .ok (.triangle a b c)
  | .trapezoid, [a, b, c, d] => .ok (.trapezoid a b c d)
  | .gaussian, [a, b] => .ok (.gaussian a b)
  | .sigmoid, [a, b] => .ok (.sigmoid a b)
  | .sigmoidFinite, [a, b, c] => .ok (.sigmoidFinite a b c)
  | _, _ => .throws

section
variable {K : Type} [Field K] [LinearOrder K]

/-- `s_shape`, FuzzySetFactory.cpp:102-112. -/
def sShape (x lower center upper : K) : K :=
  if x ≤ lower then 0
  else if lower ≤ x ∧ x ≤ center then 1 / 2 * ((x - lower) / (center - lower)) ^ 2
  else if center ≤ x ∧ x ≤ upper then 1 - 1 / 2 * ((x - upper) / (center - upper)) ^ 2
  else 1

/-- The functions returned by `triangleFunction`, `trapezoidFunction`, `gaussianFunction`, `sigmoidFunction` and
`sigmoidFiniteFunction`, FuzzySetFactory.cpp:62-124. Division by zero (a Gaussian with `sigma = 0`) gives 0 in `K` and an
infinity or NaN in C++: the theorems exclude it. -/
def MembershipFn.eval [HasExp K] : MembershipFn K → K → K
  | .triangle min peak max, value =>
    if value ≤ min ∨ max ≤ value then 0
    else if value ≤ peak then (value - min) / (peak - min)
    else (max - value) / (max - peak)
  | .trapezoid min leftPeak rightPeak max, value =>
    if value ≤ min ∨ max ≤ value then 0
    else if value ≤ leftPeak then (value - min) / (leftPeak - min)
    else if value ≤ rightPeak then 1
    else (max - value) / (max - rightPeak)
  | .gaussian mean sigma, value => HasExp.exp (-(1 / 2) * ((value - mean) / sigma) ^ 2)
  | .sigmoid center slope, value => 1 / (1 + HasExp.exp (-slope * (value - center)))
  | .sigmoidFinite lower center upper, value =>
    if lower > upper then 1 - sShape value upper center lower else sShape value lower center upper

/-- `FuzzySet` (FuzzySet.h:30-240). `base`: a linguistic term of the variable `dim` with range `lo … hi`; `cut`: the set made by
`FuzzyRule::apply`. -/
inductive FuzzySet (K : Type)
  | base (dim : String) (lo hi : K) (f : MembershipFn K)
  | or (a b : FuzzySet K)
  | and (a b : FuzzySet K)
  | not (a : FuzzySet K)
  | cut (c : K) (a : FuzzySet K)
deriving DecidableEq, Repr

/-- `FuzzySet::Data`, a `std::map<std::string, double>`. -/
abbrev FuzzyData (K : Type) := String → Option K

/-- `evaluate_membership`, FuzzySet.cpp:26-48, with the functions made by `||`, `&&` and `!` (FuzzySet.cpp:147-171) and by
`FuzzyRule::apply` (FuzzyRule.cpp:20-22). -/
def FuzzySet.eval [HasExp K] : FuzzySet K → FuzzyData K → Outcome K
  | .base dim _ _ f, data =>
    match data dim with
    | none => .throws
    | some x => .ok (f.eval x)
  | .or a b, data => (a.eval data).bind fun x => (b.eval data).bind fun y => .ok (max x y)
  | .and a b, data => (a.eval data).bind fun x => (b.eval data).bind fun y => .ok (min x y)
  | .not a, data => (a.eval data).bind fun x => .ok (1 - x)
  | .cut c a, data => (a.eval data).bind fun x => .ok (min c x)

/-- The dimensions of the crisp set: name and range. `CrispSet::operator*` (CrispSet.cpp:15-22) inserts into a map: a name that
is there already stays as it is. The order is that of insertion here, but only the number of dimensions and a single
dimension are looked at. -/
def FuzzySet.dims : FuzzySet K → List (String × K × K)
  | .base dim lo hi _ => [(dim, lo, hi)]
  | .or a b => a.dims ++ b.dims.filter (fun d => !(a.dims.map (·.1)).contains d.1)
  | .and a b => a.dims ++ b.dims.filter (fun d => !(a.dims.map (·.1)).contains d.1)
  | .not a => a.dims
  | .cut _ a => a.dims

/-- `FuzzyRule` (FuzzyRule.h). -/
structure FuzzyRule (K : Type) where
  antecedent : FuzzySet K
  consequent : FuzzySet K
deriving DecidableEq, Repr

/-- `FuzzyRule::apply`, FuzzyRule.cpp:14-26. -/
def FuzzyRule.apply [HasExp K] (r : FuzzyRule K) (data : FuzzyData K) : Outcome (FuzzySet K) :=
  (r.antecedent.eval data).bind fun c => .ok (.cut c r.consequent)

/-- `FuzzyControlSystem` (FuzzyControlSystem.h:25-90). -/
structure FuzzySystem (K : Type) where
  outputDomain : Option String
  rules : List (FuzzyRule K)
deriving DecidableEq, Repr

/-- `addRule`, FuzzyControlSystem.cpp:17-31. -/
def FuzzySystem.addRule (s : FuzzySystem K) (r : FuzzyRule K) : Outcome (FuzzySystem K) :=
  match r.consequent.dims with
  | [(name, _)] =>
    match s.outputDomain with
    | none => .ok { outputDomain := some name, rules := s.rules ++ [r] }
    | some d => if d ≠ name then .throws else .ok { s with rules := s.rules ++ [r] }
  | _ => .throws

/-- `applyRules`, FuzzyControlSystem.cpp:33-38: `_rules[0]` of a system without rules is undefined. `transform_reduce` may combine
the sets in any order; here from left to right. -/
def FuzzySystem.applyRules [HasExp K] (s : FuzzySystem K) (data : FuzzyData K) : Outcome (FuzzySet K) :=
  match s.rules with
  | [] => .ub
  | r :: rs => rs.foldl (fun acc r => acc.bind fun a => (r.apply data).bind fun b => .ok (.or a b)) (r.apply data)

/-- `DefuzzificationMethodOption`. -/
inductive DefuzzMethod
  | centerOfGravity | meanOfMaximum
deriving DecidableEq, Repr

/-- The loop `for (x = min; x <= max; x += step)`; `none` if it has not ended after `fuel` rounds. -/
def sampleLoop (step hi : K) : Nat → K → Option (List K)
  | 0, _ => none
  | fuel + 1, x => if x ≤ hi then (sampleLoop step hi fuel (x + step)).map (x :: ·) else some []

/-- `size_t` minus one. -/
def sizePred (n : Nat) : Nat := if n = 0 then 2 ^ 64 - 1 else n - 1

/-- The points where the loops of FuzzySet.cpp:76-81 and 102-113 evaluate the set. With `numSamples = 1` the step is a division by
zero, i.e. infinite or NaN, so the loop ends after the first round. -/
def samplePoints (numSamples : Nat) (lo hi : K) : Outcome (List K) :=
  if numSamples = 1 then .ok (if lo ≤ hi then [lo] else [])
  else
    match sampleLoop ((hi - lo) / (sizePred numSamples : K)) hi (sizePred numSamples + 2) lo with
    | none => .diverges
    | some xs => .ok xs

/-- Evaluate a one-dimensional set at the given points, in the loops of FuzzySet.cpp:75-81 and 101-113. -/
def FuzzySet.evalAt [HasExp K] (s : FuzzySet K) (dim : String) : List K → Outcome (List (K × K))
  | [] => .ok []
  | x :: xs => (s.eval fun d => if d = dim then some x else none).bind fun m => (s.evalAt dim xs).bind fun r => .ok ((x, m) :: r)

/-- `centerOfGravity`, FuzzySet.cpp:61-84, from the samples. -/
def cogOf (samples : List (K × K)) : K :=
  let r := samples.foldl (fun acc p => (acc.1 + p.1 * p.2, acc.2 + p.2)) ((0, 0) : K × K)
  if r.2 = 0 then 0 else r.1 / r.2

/-- `isNearRel`, Math.cpp:32-37. -/
def nearRel (a b tol : K) : Bool := decide (|a - b| ≤ tol * max |a| |b|)

/-- The tolerance of `meanOfMaximum`, FuzzySet.cpp:110. -/
def momTolerance : K := 1 / 100000

/-- One round of `meanOfMaximum`, FuzzySet.cpp:104-112. -/
def momStep (acc : K × List K) (p : K × K) : K × List K :=
  let acc := if p.2 > acc.1 then (p.2, []) else acc
  if nearRel p.2 acc.1 momTolerance then (acc.1, acc.2 ++ [p.1]) else acc

/-- `meanOfMaximum`, FuzzySet.cpp:86-118, from the samples. -/
def momOf (samples : List (K × K)) : K :=
  let xs := (samples.foldl momStep (0, [])).2
  if xs.isEmpty then 0 else xs.sum / (xs.length : K)

/-- `defuzzify`, FuzzySet.cpp:50-118. -/
def FuzzySet.defuzzify [HasExp K] (s : FuzzySet K) (method : DefuzzMethod) (numSamples : Nat) : Outcome K :=
  match s.dims with
  | [(name, lo, hi)] =>
    (samplePoints numSamples lo hi).bind fun xs => (s.evalAt name xs).bind fun samples =>
      .ok (match method with
        | .centerOfGravity => cogOf samples
        | .meanOfMaximum => momOf samples)
  | _ => .throws

/-- The entries of `FuzzyControlSettings` that are used, as far as they are there. -/
structure FuzzySettings (K : Type) where
  method : Option DefuzzMethod
  numSamples : Option Nat
  interpretOutputAs : Option String
  suitabilityThreshold : Option K
deriving DecidableEq, Repr

/-- `predict`, FuzzyControlSystem.cpp:40-56; 1000 samples by default (FuzzyControlSystem.h:65). -/
def FuzzySystem.predict [HasExp K] (s : FuzzySystem K) (settings : FuzzySettings K) (data : FuzzyData K) : Outcome K :=
  (s.applyRules data).bind fun u =>
    match settings.method with
    | none => .throws
    | some m => u.defuzzify m (settings.numSamples.getD 1000)

end

end Verif
