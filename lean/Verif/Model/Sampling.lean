import Verif.Model.FeatureVectorEncoder
/-!
Model of /repo/src/autopas/utils/Random.h, NumberInterval.h, NumberSetFinite.h and of the Latin hypercube sampling in
/repo/src/autopas/tuning/utils/FeatureVectorEncoder.cpp. `std::shuffle` and `std::uniform_int_distribution` are parameters; the number tells the calls apart.
-/
namespace Verif

/-- `std::shuffle`. -/
def Shuffler : Type 1 := ∀ {α : Type}, Nat → List α → List α

/-- The largest `size_t`. -/
def samplingSizeMax : Nat := 2 ^ 64 - 1

/-- `m - 1` as `size_t`. -/
def wrapPred (m : Nat) : Nat := if m = 0 then samplingSizeMax else m - 1

/-- The loop that copies the pool, Random.h:62-64; `fuel` bounds the number of copies. -/
def copyUntil {α : Type} (pool : List α) (n : Nat) : Nat → List α → List α
  | 0, result => result
  | fuel + 1, result => if result.length < n then copyUntil pool n fuel (result ++ pool) else result

/-- `Random::uniformSample(poolBegin, poolEnd, n)`, Random.h:52-80. -/
def uniformSample {α : Type} (sh : Shuffler) (r : Nat) (pool : List α) (n : Nat) : Outcome (List α) :=
  if pool.isEmpty then .throws
  else
    let result := copyUntil pool n n []
    let result :=
      if result.length > n then
        let extra := result.length - n
        let result := result.take (result.length - extra) ++ sh r (result.drop (result.length - extra))
        result.take n
      else result
    .ok (sh (r + 1) result)

/-- `Random::uniformSample(min, max, n)`, Random.h:90-96: with the largest number as `max` the loop does not end. -/
def uniformSampleRange (sh : Shuffler) (r : Nat) (min max n : Nat) : Outcome (List Nat) :=
  if max = samplingSizeMax then .diverges else uniformSample sh r (List.range' min (max + 1 - min)) n

/-- `Random::pickRandom`, Random.h:106-115; `draw lo hi` is a number of this range. With an empty pool the range is `0 .. 2^64 - 1` and the iterator leaves
the pool. -/
def pickRandom {α : Type} (draw : Nat → Nat → Nat) (pool : List α) : Outcome α :=
  match pool[draw 0 (wrapPred pool.length)]? with
  | some x => .ok x
  | none => .ub

/-- `Random::randomSubset`, Random.h:124-143; sets as lists, inserted elements in the order of insertion. -/
def randomSubset {α : Type} (sh : Shuffler) (r : Nat) (pool : List α) (n : Nat) : List α :=
  let size := min n pool.length
  (sh r pool).take size

/-- A set of numbers: `NumberSetFinite` (in ascending order) or `NumberInterval`. -/
inductive NumSet
  | finite (xs : List Rat)
  | interval (lo hi : Rat)

/-- The evenly spaced numbers, NumberInterval.h:101-106. -/
def ratGrid (lo hi : Rat) (n : Nat) : List Rat :=
  (List.range (n - 1)).map (fun i : Nat => lo + (hi - lo) / ((n - 1 : Nat) : Rat) * (i : Rat)) ++ [hi]

/-- `uniformSample`, NumberInterval.h:90-113 and NumberSetFinite.h:54-56. -/
def NumSet.uniformSample (sh : Shuffler) (r : Nat) (n : Nat) : NumSet → Outcome (List Rat)
  | .finite xs => Verif.uniformSample sh r xs n
  | .interval lo hi =>
    if n = 0 then .ok []
    else if n = 1 then .ok [(hi + lo) / 2]
    else .ok (sh r (ratGrid lo hi n))

/-- `uniformSampleSet`, NumberInterval.h:115-136 and NumberSetFinite.h:57, as the list of insertions. -/
def NumSet.uniformSampleSet (sh : Shuffler) (r : Nat) (n : Nat) : NumSet → List Rat
  | .finite xs => randomSubset sh r xs n
  | .interval lo hi =>
    if n = 0 then []
    else if hi = lo then [lo]
    else if n = 1 then [(hi + lo) / 2]
    else ratGrid lo hi n

/-- `getMedian`, NumberInterval.h:138 and NumberSetFinite.h:58-62: undefined for the empty set. -/
def NumSet.getMedian : NumSet → Outcome Rat
  | .finite xs => match xs[xs.length / 2]? with
    | some x => .ok x
    | none => .ub
  | .interval lo hi => .ok ((hi + lo) / 2)

/-- One vector after the other, FeatureVectorEncoder.cpp:222-236. -/
def Encoder.collect {A B C : Type} [DecidableEq A] [DecidableEq B] [DecidableEq C] (E : Encoder A B C) (d0 d1 d2 : List Nat) (c : List Rat) :
    List Nat → Outcome (List (FeatureVector A B C))
  | [] => .ok []
  | i :: is => (E.convertFromTunable [d0.getD i 0, d1.getD i 0, d2.getD i 0] (c.getD i 0)).bind fun v =>
    (E.collect d0 d1 d2 c is).bind fun vs => .ok (v :: vs)

/-- `lhsSampleFeatures`, FeatureVectorEncoder.cpp:206-239; `_discreteRestrictions[i] - 1` becomes an unsigned number. -/
def Encoder.lhsSampleFeatures {A B C : Type} [DecidableEq A] [DecidableEq B] [DecidableEq C] (E : Encoder A B C) (csf : NumSet) (sh : Shuffler) (r n : Nat) :
    Outcome (List (FeatureVector A B C)) :=
  (uniformSampleRange sh r 0 (wrapPred E.ctes.length) n).bind fun d0 =>
  (uniformSampleRange sh (r + 2) 0 (wrapPred E.dataLayouts.length) n).bind fun d1 =>
  (uniformSampleRange sh (r + 4) 0 (wrapPred E.newton3s.length) n).bind fun d2 =>
  (csf.uniformSample sh (r + 6) n).bind fun c =>
  E.collect d0 d1 d2 c (List.range n)

/-- `lhsSampleFeatureCluster`, FeatureVectorEncoder.cpp:241-260. -/
def lhsSampleFeatureCluster (csf : NumSet) (sh : Shuffler) (r n : Nat) (iteration : Rat) : Outcome (List (List Rat)) :=
  (csf.uniformSample sh r n).bind fun c => .ok ((List.range n).map fun i => [c.getD i 0, iteration])

end Verif
