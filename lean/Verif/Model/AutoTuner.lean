import Verif.Model.Outcome
import Mathlib.Data.List.Sort
/-!
Model of /repo/src/autopas/tuning/AutoTuner.{h,cpp}, tuning/searchSpace/EvidenceCollection.{h,cpp} and
tuning/selectors/OptimumSelector.h.

* Configurations are an arbitrary type `C` with decidable equality (what `Configuration::operator==`/`<` really do is the
  subject of C43).
* `_searchSpace` (a `std::set`) is the list of its elements in ascending order; `_configQueue` (a `std::vector`, used from
  the back) is a list whose *last* element is `back()`.
* `_evidenceMap` (a `std::map`) is an association list. The map is ordered by configuration, the model by first insertion;
  this only matters for the choice between configurations with exactly the same evidence.
* Tuning strategies are arbitrary: each is a record of functions on a common state `σ`.
* `long` is `Int` (no overflow), `size_t`/`unsigned` are `Nat`.
* Not modelled: logging, timers, energy meter, live info and homogeneity/density collection (AutoTuner.cpp:57-71, 321-359,
  380-434) and `_endOfTuningPhase`, which is only used for logging. None of them influences the modelled state.
-/
namespace Verif

/-- `Evidence`, /repo/src/autopas/tuning/searchSpace/Evidence.h:14-30. -/
structure Evidence where
  iteration : Nat
  tuningPhase : Nat
  value : Int
deriving DecidableEq, Repr

/-- `_evidenceMap`, /repo/src/autopas/tuning/searchSpace/EvidenceCollection.h:71. -/
abbrev EvidenceMap (C : Type) := List (C × List Evidence)

/-- `EvidenceCollection::addEvidence`, EvidenceCollection.cpp:16-19. -/
def addEvidence {C : Type} [DecidableEq C] : EvidenceMap C → C → Evidence → EvidenceMap C
  | [], c, e => [(c, [e])]
  | (k, es) :: m, c, e => if k = c then (k, es ++ [e]) :: m else (k, es) :: addEvidence m c e

/-- `modifyLastEvidence(configuration).value = v`, EvidenceCollection.cpp:30-32, AutoTuner.cpp:256. For a configuration
without evidence the code is undefined; the model does nothing (it is only called right after `addEvidence`). -/
def setLastEvidence {C : Type} [DecidableEq C] : EvidenceMap C → C → Int → EvidenceMap C
  | [], _, _ => []
  | (k, es) :: m, c, v =>
    if k = c then
      (k, match es.reverse with
        | [] => []
        | e :: r => (⟨e.iteration, e.tuningPhase, v⟩ :: r).reverse) :: m
    else (k, es) :: setLastEvidence m c v

/-- `getEvidence`, EvidenceCollection.cpp:21-28 (an absent configuration gives the empty list instead of a null pointer). -/
def getEvidence {C : Type} [DecidableEq C] : EvidenceMap C → C → List Evidence
  | [], _ => []
  | (k, es) :: m, c => if k = c then es else getEvidence m c

/-- Inner loop of `getOptimalConfiguration`, EvidenceCollection.cpp:44-51: the first evidence (from the back) of the phase
that is better than the current optimum. -/
def betterEvidence (phase : Nat) (best : Int) (es : List Evidence) : Option Evidence :=
  es.reverse.find? fun e => e.tuningPhase = phase && decide (best > e.value)

/-- Outer loop of `getOptimalConfiguration`, EvidenceCollection.cpp:42-52. -/
def optimalLoop {C : Type} (phase : Nat) : EvidenceMap C → Option C → Int → Option C × Int
  | [], c, best => (c, best)
  | (k, es) :: m, c, best =>
    match betterEvidence phase best es with
    | some e => optimalLoop phase m (some k) e.value
    | none => optimalLoop phase m c best

/-- `std::numeric_limits<long>::max()` on a 64 bit platform. -/
def longMax : Int := 2 ^ 63 - 1

/-- `getOptimalConfiguration`, EvidenceCollection.cpp:34-61. The default constructed configuration is `none`. -/
def getOptimalConfiguration {C : Type} (m : EvidenceMap C) (phase : Nat) : Outcome C :=
  if m.isEmpty then .throws
  else match (optimalLoop phase m none longMax).1 with
    | some c => .ok c
    | none => .throws

/-- `SelectorStrategyOption`. -/
inductive Selector
  | fastestAbs | fastestMean | fastestMedian
deriving DecidableEq, Repr

/-- `minValue`, OptimumSelector.h:26. Only called for non-empty vectors. -/
def minValue : List Int → Int
  | [] => 0
  | a :: l => l.foldl min a

/-- `meanValue`, OptimumSelector.h:33-35 (C++ division truncates towards zero). -/
def meanValue (l : List Int) : Int := l.sum.tdiv l.length

/-- `medianValue`, OptimumSelector.h:42-49. -/
def medianValue (l : List Int) : Int :=
  if l.isEmpty then 0 else (l.mergeSort (fun a b => decide (a ≤ b))).getD ((l.length - 1) / 2) 0

/-- `optimumValue`, OptimumSelector.h:57-78. -/
def optimumValue (l : List Int) (s : Selector) : Int :=
  if l.isEmpty then 0
  else match s with
    | .fastestAbs => minValue l
    | .fastestMean => meanValue l
    | .fastestMedian => medianValue l

/-- `estimateRuntimeFromSamples`, AutoTuner.cpp:365-378. -/
def estimateRuntime (rebuildFrequency : Nat) (sel : Selector) (building notBuilding : List Int) : Int :=
  let reducedValueBuilding := optimumValue building sel
  let reducedValueNotBuilding := if notBuilding.isEmpty then reducedValueBuilding else optimumValue notBuilding sel
  (reducedValueBuilding + ((rebuildFrequency : Int) - 1) * reducedValueNotBuilding).tdiv rebuildFrequency

/-- `TuningStrategyInterface`, /repo/src/autopas/tuning/tuningStrategy/TuningStrategyInterface.h:45-95. `reset` and
`optimizeSuggestions` return the new queue and whether a wipe of the queue is intentional. -/
structure Strategy (σ C : Type) where
  reset : σ → Nat → Nat → List C → EvidenceMap C → (List C × Bool) × σ
  optimize : σ → List C → EvidenceMap C → (List C × Bool) × σ
  addEvidence : σ → C → Evidence → σ
  reject : σ → C → Bool → σ

/-- Constants of the tuner: `_tuningInterval`, `_maxSamples`, `_rebuildFrequency`, `_selectorStrategy`, the strategies, and
the smoothing of the last evidence of a list (`smoothLastPoint(…, 5)`, AutoTuner.cpp:250-253; `none` = disabled). -/
structure TunerCfg (σ C : Type) where
  tuningInterval : Nat
  maxSamples : Nat
  rebuildFrequency : Nat
  selector : Selector
  strategies : List (Strategy σ C)
  smooth : Option (List Evidence → Int)

/-- Members of `AutoTuner`, AutoTuner.h:231-409. -/
structure Tuner (σ C : Type) where
  iteration : Nat
  tuningPhase : Nat
  iterationBaseline : Nat
  isTuning : Bool
  forceRetune : Bool
  samplesNot : List Int
  samplesReb : List Int
  evidence : EvidenceMap C
  searchSpace : List C
  queue : List C
  strat : σ

variable {σ C : Type} [DecidableEq C]

/-- Constructor, AutoTuner.cpp:22-50. -/
def Tuner.init (cfg : TunerCfg σ C) (searchSpace : List C) (s : σ) : Outcome (Tuner σ C) :=
  if searchSpace.isEmpty then .throws
  else .ok { iteration := 0, tuningPhase := 0, iterationBaseline := 0, isTuning := false, forceRetune := false
             samplesNot := List.replicate cfg.maxSamples 0, samplesReb := []
             evidence := [], searchSpace := searchSpace, queue := searchSpace, strat := s }

/-- `searchSpaceIsTrivial`, AutoTuner.cpp:73. -/
def Tuner.trivial (t : Tuner σ C) : Bool := t.searchSpace.length = 1

/-- `inTuningPhase`, AutoTuner.cpp:438-442. -/
def Tuner.inTuningPhase (cfg : TunerCfg σ C) (t : Tuner σ C) : Bool :=
  (decide (t.iteration % cfg.tuningInterval = 0) || t.isTuning || t.forceRetune) && !t.trivial

/-- `getCurrentNumSamples`, AutoTuner.cpp:361-363. -/
def Tuner.numSamples (t : Tuner σ C) : Nat := t.samplesNot.length + t.samplesReb.length

/-- `std::vector::resize(n)` (new elements are 0). -/
def resizeVec (l : List Int) (n : Nat) : List Int := l.take n ++ List.replicate (n - l.length) 0

/-- `forceRetune`, AutoTuner.cpp:77-84. -/
def Tuner.forceRetuning (cfg : TunerCfg σ C) (t : Tuner σ C) : Tuner σ C :=
  { t with samplesNot := resizeVec t.samplesNot cfg.maxSamples, forceRetune := true, iterationBaseline := 0 }

/-- Loop over the strategies with `reset`, AutoTuner.cpp:126-136. -/
def runReset (iteration phase : Nat) (ev : EvidenceMap C) : List (Strategy σ C) → List C → σ → List C × σ
  | [], q, s => (q, s)
  | st :: sts, q, s =>
    let r := st.reset s iteration phase q ev
    runReset iteration phase ev sts (if !r.1.2 && r.1.1.isEmpty then q else r.1.1) r.2

/-- Loop over the strategies with `optimizeSuggestions`, AutoTuner.cpp:143-153. -/
def runOptimize (ev : EvidenceMap C) : List (Strategy σ C) → List C → σ → List C × σ
  | [], q, s => (q, s)
  | st :: sts, q, s =>
    let r := st.optimize s q ev
    runOptimize ev sts (if !r.1.2 && r.1.1.isEmpty then q else r.1.1) r.2

/-- `tuneConfiguration`, AutoTuner.cpp:86-170. `pop_back` of an empty queue is undefined. -/
def Tuner.tuneConfiguration (cfg : TunerCfg σ C) (t : Tuner σ C) : Outcome (Tuner σ C × Bool) :=
  if t.queue.isEmpty then .ub
  else
    let q := t.queue.dropLast
    let t := { t with samplesNot := [], samplesReb := [] }
    let t :=
      if (t.iteration % cfg.tuningInterval = 0 ∧ !t.isTuning) ∨ t.forceRetune then
        let r := runReset t.iteration t.tuningPhase t.evidence cfg.strategies t.searchSpace.reverse t.strat
        { t with isTuning := true, forceRetune := false, iterationBaseline := 0, queue := r.1, strat := r.2 }
      else
        let r := runOptimize t.evidence cfg.strategies q t.strat
        { t with isTuning := true, queue := r.1, strat := r.2 }
    if t.queue.isEmpty then
      (getOptimalConfiguration t.evidence t.tuningPhase).bind fun c =>
        .ok ({ t with queue := [c], isTuning := false, samplesReb := resizeVec t.samplesReb cfg.maxSamples,
                      iterationBaseline := 0 }, false)
    else .ok (t, t.isTuning)

/-- `getCurrentConfig`, AutoTuner.cpp:172: `back()`. -/
def Tuner.currentConfig (t : Tuner σ C) : Outcome C :=
  match t.queue.getLast? with
  | some c => .ok c
  | none => .ub

/-- `getNextConfig`, AutoTuner.cpp:174-187. -/
def Tuner.getNextConfig (cfg : TunerCfg σ C) (t : Tuner σ C) : Outcome (Tuner σ C × C × Bool) :=
  if !t.inTuningPhase cfg then t.currentConfig.bind fun c => .ok (t, c, false)
  else if t.numSamples < cfg.maxSamples then t.currentConfig.bind fun c => .ok (t, c, true)
  else (t.tuneConfiguration cfg).bind fun r => r.1.currentConfig.bind fun c => .ok (r.1, c, r.2)

/-- The loop of `rejectConfig` over `optimizeSuggestions`, AutoTuner.cpp:214-220 (no restoring of wiped queues here). -/
def runOptimizeRaw (ev : EvidenceMap C) : List (Strategy σ C) → List C → σ → List C × σ
  | [], q, s => (q, s)
  | st :: sts, q, s =>
    let r := st.optimize s q ev
    runOptimizeRaw ev sts r.1.1 r.2

/-- `rejectConfig`, AutoTuner.cpp:189-223. -/
def Tuner.rejectConfig (cfg : TunerCfg σ C) (t : Tuner σ C) (rejected : C) (indefinitely : Bool) :
    Outcome (Tuner σ C × C × Bool) :=
  if t.trivial then .throws
  else
    let q := t.queue.filter (fun c => c ≠ rejected)
    let space := if indefinitely then t.searchSpace.filter (fun c => c ≠ rejected) else t.searchSpace
    let s := cfg.strategies.foldl (fun s st => st.reject s rejected indefinitely) t.strat
    let r := runOptimizeRaw t.evidence cfg.strategies q s
    let t := { t with queue := r.1, searchSpace := space, strat := r.2 }
    t.currentConfig.bind fun c => .ok (t, c, !t.queue.isEmpty)

/-- `addMeasurement`, AutoTuner.cpp:225-291. -/
def Tuner.addMeasurement (cfg : TunerCfg σ C) (t : Tuner σ C) (sample : Int) (rebuilt : Bool) : Outcome (Tuner σ C) :=
  t.currentConfig.bind fun conf =>
    if t.numSamples ≥ cfg.maxSamples then .throws
    else
      let t := if rebuilt then { t with samplesReb := t.samplesReb ++ [sample] }
               else { t with samplesNot := t.samplesNot ++ [sample] }
      if t.numSamples = cfg.maxSamples then
        let reduced := estimateRuntime cfg.rebuildFrequency cfg.selector t.samplesReb t.samplesNot
        let ev := addEvidence t.evidence conf ⟨t.iteration, t.tuningPhase, reduced⟩
        let smoothed := match cfg.smooth with
          | some f => min reduced (f (getEvidence ev conf))
          | none => reduced
        let ev := setLastEvidence ev conf smoothed
        let s := cfg.strategies.foldl (fun s st => st.addEvidence s conf ⟨t.iteration, t.tuningPhase, smoothed⟩) t.strat
        .ok { t with evidence := ev, strat := s }
      else .ok t

/-- `bumpIterationCounters`, AutoTuner.cpp:293-311. -/
def Tuner.bump (cfg : TunerCfg σ C) (t : Tuner σ C) (needToWait : Bool) : Tuner σ C :=
  let baseline :=
    if !(needToWait || t.inTuningPhase cfg || decide (t.iterationBaseline < cfg.tuningInterval)) then 0
    else t.iterationBaseline
  let it := t.iteration + 1
  { t with iterationBaseline := baseline + 1, iteration := it
           tuningPhase := if it % cfg.tuningInterval = 0 then t.tuningPhase + 1 else t.tuningPhase }

/-- `willRebuildNeighborLists`, AutoTuner.cpp:313-319. -/
def Tuner.willRebuild (cfg : TunerCfg σ C) (t : Tuner σ C) : Bool :=
  let iterationsPerRebuild := if t.inTuningPhase cfg then cfg.maxSamples else cfg.rebuildFrequency
  let next := if t.forceRetune then t.iterationBaseline else t.iterationBaseline + 1
  decide (next % iterationsPerRebuild = 0)

end Verif
