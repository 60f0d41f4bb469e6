import Verif.Model.Outcome
import Mathlib.Algebra.Order.Ring.Rat
/-!
Model of /repo/src/autopas/tuning/utils/FeatureVectorEncoder.{h,cpp}. Options are of arbitrary types: `A` the triples of container, traversal and load estimator, `B` data
layouts, `C` Newton 3 options.
-/
namespace Verif

/-- `FeatureVector`. -/
structure FeatureVector (A B C : Type) where
  cte : A
  dataLayout : B
  newton3 : C
  cellSizeFactor : Rat
  interactionType : Nat
deriving DecidableEq, Repr

/-- The options set by `setAllowedOptions`, FeatureVectorEncoder.cpp:21-38. -/
structure Encoder (A B C : Type) where
  ctes : List A
  dataLayouts : List B
  newton3s : List C
  interactionType : Nat

variable {A B C : Type} [DecidableEq A] [DecidableEq B] [DecidableEq C]

/-- `getIndex`, FeatureVectorEncoder.h:199-206. -/
def getIndex {α : Type} [DecidableEq α] : List α → α → Outcome Nat
  | [], _ => .throws
  | x :: xs, a => if x = a then .ok 0 else (getIndex xs a).bind fun i => .ok (i + 1)

/-- `convertToTunable`, FeatureVectorEncoder.cpp:262-274. -/
def Encoder.convertToTunable (E : Encoder A B C) (v : FeatureVector A B C) : Outcome (List Nat × Rat) :=
  (getIndex E.ctes v.cte).bind fun a => (getIndex E.dataLayouts v.dataLayout).bind fun b => (getIndex E.newton3s v.newton3).bind fun c =>
    .ok ([a, b, c], v.cellSizeFactor)

/-- `convertFromTunable`, FeatureVectorEncoder.cpp:276-288: an index out of range is undefined behaviour. -/
def Encoder.convertFromTunable (E : Encoder A B C) (d : List Nat) (csf : Rat) : Outcome (FeatureVector A B C) :=
  match E.ctes[d.getD 0 0]?, E.dataLayouts[d.getD 1 0]?, E.newton3s[d.getD 2 0]? with
  | some a, some b, some c => .ok ⟨a, b, c, csf, E.interactionType⟩
  | _, _, _ => .ub

/-- One one-hot encoded dimension, FeatureVectorEncoder.cpp:55-57. -/
def oneHotBlock (n d : Nat) : List Rat := (List.range n).map fun i => if i = d then 1 else 0

/-- `oneHotEncode`, FeatureVectorEncoder.cpp:47-66. -/
def Encoder.oneHotEncode (E : Encoder A B C) (v : FeatureVector A B C) : Outcome (List Rat) :=
  (E.convertToTunable v).bind fun t =>
    .ok (oneHotBlock E.ctes.length (t.1.getD 0 0) ++ oneHotBlock E.dataLayouts.length (t.1.getD 1 0) ++ oneHotBlock E.newton3s.length (t.1.getD 2 0) ++ [t.2])

/-- The scan of one dimension, FeatureVectorEncoder.cpp:80-92, from list index `i` with the current `value`. -/
def scanBlock : List Rat → Nat → Option Nat → Outcome (Option Nat)
  | [], _, value => .ok value
  | x :: xs, i, value =>
    if x = 1 then (match value with
      | some _ => .throws
      | none => scanBlock xs (i + 1) (some i))
    else scanBlock xs (i + 1) value

/-- One dimension, FeatureVectorEncoder.cpp:79-100. -/
def decodeBlock (xs : List Rat) : Outcome Nat :=
  (scanBlock xs 0 none).bind fun value => match value with
    | some d => .ok d
    | none => .throws

/-- `oneHotDecode`, FeatureVectorEncoder.cpp:68-108. -/
def Encoder.oneHotDecode (E : Encoder A B C) (vec : List Rat) : Outcome (FeatureVector A B C) :=
  let n0 := E.ctes.length
  let n1 := E.dataLayouts.length
  let n2 := E.newton3s.length
  if vec.length ≠ n0 + n1 + n2 + 1 then .throws
  else (decodeBlock (vec.take n0)).bind fun a => (decodeBlock ((vec.drop n0).take n1)).bind fun b =>
    (decodeBlock ((vec.drop (n0 + n1)).take n2)).bind fun c => E.convertFromTunable [a, b, c] (vec.getD (n0 + n1 + n2) 0)

/-- `convertToCluster`, FeatureVectorEncoder.cpp:110-123. -/
def Encoder.convertToCluster (E : Encoder A B C) (v : FeatureVector A B C) (iteration : Rat) : Outcome (List Nat × List Rat) :=
  (E.convertToTunable v).bind fun t => .ok (t.1, [t.2, iteration])

/-- `convertFromCluster`, FeatureVectorEncoder.cpp:125-140. -/
def Encoder.convertFromCluster (E : Encoder A B C) (v : List Nat × List Rat) : Outcome (FeatureVector A B C) :=
  E.convertFromTunable v.1 (v.2.getD 0 0)

/-- `clusterNeighboursManhattan1`, FeatureVectorEncoder.cpp:142-166 (weights are all 1 and omitted). -/
def clusterNeighbours (restrictions : List Nat) (target : List Nat) : List (List Nat) :=
  (List.range target.length).flatMap fun i =>
    (List.range (restrictions.getD i 0)).flatMap fun x => if x ≠ target.getD i 0 then [target.set i x] else []

end Verif
