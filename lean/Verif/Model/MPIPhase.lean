import Verif.Model.MPITuning
import Verif.Model.AutoTuner
import Verif.Model.SlowConfigFilter
/-!
Model of a tuning phase of several MPI ranks with /repo/src/autopas/tuning/tuningStrategy/MPIParallelizedStrategy.cpp as the only strategy, and of
`distributeRanksInBuckets` (/repo/src/autopas/utils/AutoPasConfigurationCommunicator.cpp:238-288).

All ranks of one bucket (communicator) are modelled together. Between two calls of `optimizeSuggestions` a rank either measures its current configuration
(all its samples) or rejects it; this is one *round*. `optimizeSuggestions` consists of collective operations of the bucket, so a round needs all ranks: if
some rank has left the tuning phase and another one has not, the latter waits for ever (the next collective operation of the former is the one of the next
`reset`, on another communicator).

* Configurations are an arbitrary type; that they survive the broadcast is C41.
* Of `AutoTuner` the queue, the evidence and the end of the phase are modelled (AutoTuner.cpp:86-170, 189-223); samples of one configuration are one value.
* The search space has more than one configuration.
-/
namespace Verif

/-- A rank in a tuning phase: `_configQueue` (used from the back), `_evidenceCollection`, `_rejectedConfigurations`, `_usingFallbackConfig`
(MPIParallelizedStrategy.h:93-150), and the configuration it settled on. -/
structure MPIRank (C : Type) where
  queue : List C
  evidence : EvidenceMap C
  rejected : List C
  fallback : Bool
  settled : Option C

/-- What a rank does with a configuration: it is measured or it is not applicable. -/
inductive RankEvent
  | measured (value : Int)
  | rejected
deriving DecidableEq, Repr

variable {C : Type} [DecidableEq C]

/-- `getOptimalConfiguration`, EvidenceCollection.cpp:34-61, with the value of the evidence; `none` is the exception. -/
def optimumOf (phase : Nat) (m : EvidenceMap C) : Option (C × Int) :=
  match optimalLoop phase m none longMax with
  | (some c, v) => some (c, v)
  | (none, _) => none

/-- The part of a round before the collective operations. `measured`: `addMeasurement` (AutoTuner.cpp:225-291) and `pop_back` (:91); `rejected`:
`rejectConfig` (:196-210) and `rejectConfiguration` (MPIParallelizedStrategy.cpp:100-102). -/
def MPIRank.act (phase : Nat) (x : MPIRank C) (c : C) : RankEvent → MPIRank C
  | .measured v => { x with evidence := addEvidence x.evidence c ⟨0, phase, v⟩, queue := x.queue.dropLast }
  | .rejected => { x with queue := x.queue.filter (fun d => d ≠ c), rejected := c :: x.rejected }

/-- The stretching of the queue, MPIParallelizedStrategy.cpp:44-54. -/
def MPIRank.stretch (fallbackConfig best : C) (longest : Nat) (x : MPIRank C) : MPIRank C :=
  if x.queue.length = 1 ∧ longest > 1 then
    if best ∉ x.rejected then { x with queue := best :: x.queue }
    else { x with fallback := true, queue := fallbackConfig :: x.queue }
  else x

/-- `optimizeSuggestions` of all ranks, MPIParallelizedStrategy.cpp:27-68. (Only rank 0 notices that everyone uses the fallback configuration and
throws; in the model this ends the run.) -/
def mpiOptimize (fallbackConfig : C) (ranks : List (MPIRank C)) : Outcome (List (MPIRank C)) :=
  match ranks.mapM (fun x => optimumOf (latestPhase x.evidence) x.evidence) with
  | none => .throws
  | some bests =>
    match minloc (bests.map Prod.snd) 0 with
    | none => .ub
    | some (_, k) =>
      match bests[k]? with
      | none => .ub
      | some b =>
        let longest := (ranks.map fun x => x.queue.length).foldl max 0
        let ranks := ranks.map (MPIRank.stretch fallbackConfig b.1 longest)
        if ranks.all (fun x => x.fallback) then .throws else .ok ranks

/-- The end of `tuneConfiguration` (AutoTuner.cpp:156-165) after a measurement, and of `rejectConfig` (:221-222) after a rejection: `back()` of the empty
queue is undefined. -/
def MPIRank.finish (phase : Nat) (x : MPIRank C) : RankEvent → Outcome (MPIRank C)
  | .measured _ =>
    if x.queue.isEmpty then
      match optimumOf phase x.evidence with
      | some b => .ok { x with queue := [b.1], settled := some b.1 }
      | none => .throws
    else .ok x
  | .rejected => if x.queue.isEmpty then .ub else .ok x

/-- `Outcome` for all elements of a list. -/
def outcomeAll {α β : Type} (f : α → Outcome β) : List α → Outcome (List β)
  | [] => .ok []
  | a :: l => (f a).bind fun b => (outcomeAll f l).bind fun bs => .ok (b :: bs)

/-- A rank (with its number) tries the last configuration of its queue, `getCurrentConfig` (AutoTuner.cpp:172). -/
def MPIRank.turn (phase : Nat) (event : Nat → C → RankEvent) (x : MPIRank C × Nat) : Outcome (MPIRank C × RankEvent) :=
  match x.1.queue.getLast? with
  | none => .ub
  | some c => .ok (x.1.act phase c (event x.2 c), event x.2 c)

/-- A round. `event r c`: what happens when rank `r` tries configuration `c`. -/
def mpiRound (phase : Nat) (fallbackConfig : C) (event : Nat → C → RankEvent) (ranks : List (MPIRank C)) : Outcome (List (MPIRank C)) :=
  if ranks.all (fun x => x.settled.isSome) then .ok ranks
  else if ranks.any (fun x => x.settled.isSome) then .diverges
  else
    (outcomeAll (MPIRank.turn phase event) ranks.zipIdx).bind fun ys =>
    (mpiOptimize fallbackConfig (ys.map Prod.fst)).bind fun zs =>
    outcomeAll (fun z : MPIRank C × RankEvent => z.1.finish phase z.2) (zs.zip (ys.map Prod.snd))

/-- Several rounds. -/
def mpiRun (phase : Nat) (fallbackConfig : C) (event : Nat → C → RankEvent) : Nat → List (MPIRank C) → Outcome (List (MPIRank C))
  | 0, ranks => .ok ranks
  | n + 1, ranks => (mpiRound phase fallbackConfig event ranks).bind (mpiRun phase fallbackConfig event n)

/-- A rank after `reset`, MPIParallelizedStrategy.cpp:104-143, with its part `queue` of the search space (C40). -/
def MPIRank.start (queue : List C) (evidence : EvidenceMap C) (fallback : Bool) : MPIRank C :=
  { queue := queue, evidence := evidence, rejected := [], fallback := fallback, settled := none }

/-- The loop of `distributeRanksInBuckets`, AutoPasConfigurationCommunicator.cpp:262-285, over the sorted similarity metrics; `prev` is the metric
before. `std::adjacent_difference` keeps the first value. The quotient 0/0 is NaN and not larger than anything. -/
def bucketLoop (maxDiff metric : Rat) : Option Rat → Nat → Nat → List Rat → Nat
  | _, _, mine, [] => mine
  | prev, current, mine, x :: xs =>
    let difference := match prev with
      | none => x
      | some y => x - y
    let current := if x ≠ 0 ∧ difference / x > maxDiff then current + 1 else current
    bucketLoop maxDiff metric (some x) current (if x = metric then current else mine) xs

/-- The colour with which a rank with similarity metric `metric` calls `MPI_Comm_split`, if the metrics of all ranks are `metrics`. -/
def bucketOf (maxDiff : Rat) (metrics : List Rat) (metric : Rat) : Nat :=
  bucketLoop maxDiff metric none 0 0 (metrics.mergeSort fun a b => decide (a ≤ b))

end Verif
