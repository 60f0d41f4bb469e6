import Verif.Model.ActiveHarmony
import Verif.Model.FeatureVectorEncoder
import Mathlib.Data.List.Dedup
/-!
How `AutoPas::init` creates the tuners: /repo/src/autopas/AutoPasImpl.h:79-120, /repo/src/autopas/tuning/tuningStrategy/TuningStrategyFactory.cpp, and the constructors
of the strategies that it calls. Cell size factors are a finite set (intervals become one, C102). Files with rules are taken to be readable and correct.
-/
namespace Verif

/-- `Value(-1)` of a default constructed `InteractionTypeOption`, /repo/src/autopas/options/InteractionTypeOption.h:92; the underlying type is `unsigned int`. -/
def unsetInteractionType : Nat := 4294967295

/-- An `InteractionTypeOption`: `none` is the default constructed one. -/
def ixValue : Option IxType → Nat
  | some it => it.value
  | none => unsetInteractionType

/-- `OptionSpace`, /repo/src/autopas/tuning/utils/SearchSpaceGenerators.h:24-60. -/
structure OptionSpace where
  containers : List Cont
  traversals : List Trav
  loadEstimators : List LoadEst
  dataLayouts : List Layout
  newton3s : List Bool
  cellSizeFactors : List Rat
deriving DecidableEq, Repr

/-- `inferOptionDimensions`, SearchSpaceGenerators.cpp:65-77. Sets of options are in the order of their values; the order of the cell size factors is not
that of `std::set`. -/
def inferOptionDimensions (S : List (Configuration Rat)) : OptionSpace where
  containers := Cont.values.filter fun c => S.any fun x => decide (x.container = c.value)
  traversals := Trav.values.filter fun t => S.any fun x => decide (x.traversal = t.value)
  loadEstimators := LoadEst.values.filter fun e => S.any fun x => decide (x.loadEstimator = e.value)
  dataLayouts := [Layout.aos, Layout.soa].filter fun d => S.any fun x => decide (x.dataLayout = d.value)
  newton3s := [false, true].filter fun n => S.any fun x => decide (x.newton3 = if n then 1 else 0)
  cellSizeFactors := (S.map fun x => x.cellSizeFactor).dedup

/-- `TuningStrategyOption::Value`, /repo/src/autopas/options/TuningStrategyOption.h:23-83. -/
inductive StrategyOpt
  | tuningStrategyLogger | randomSearch | fullSearch | bayesianSearch | bayesianClusterSearch | activeHarmony | predictiveTuning | ruleBasedTuning | fuzzyTuning
  | slowConfigFilter | mpiDivideAndConquer | sortByName
deriving DecidableEq, Repr

/-- The members of `TuningStrategyFactoryInfo` that matter here, TuningStrategyFactoryInfo.h:21-75, with the environment: `harmonyHost` is whether `HARMONY_HOST` is set,
`internode` the macro `AUTOPAS_INTERNODE_TUNING`. -/
structure FactoryInfo where
  interactionType : Option IxType
  maxEvidence : Nat
  mpiDivideAndConquer : Bool
  harmonyHost : Bool
  internode : Bool

/-- A triple of container, traversal and load estimator. -/
abbrev CTE := Cont × Trav × LoadEst

/-- The strategies that the factory creates, with what they know of the search space. -/
inductive BuiltStrategy
  | randomSearch (maxEvidence : Nat)
  | bayesianSearch (encoder : Encoder CTE Layout Bool) (cellSizeFactors : List Rat) (maxEvidence : Nat)
  | bayesianClusterSearch (encoder : Encoder CTE Layout Bool) (cellSizeFactors : List Rat) (maxEvidence : Nat)
  | activeHarmony (p : HarmonyParams)
  | predictiveTuning
  | ruleBasedTuning (searchSpace : List (Configuration Rat))
  | fuzzyTuning
  | mpiParallelized (fallback : Configuration Rat)
  | slowConfigFilter
  | sortByName

/-- `_containerTraversalEstimatorOptions` in the constructors of `BayesianSearch`, BayesianSearch.cpp:38-56, and `BayesianClusterSearch`,
BayesianClusterSearch.cpp:46-64. `none`: exception, also for a type that is not an interaction type (CompatibleTraversals.h:240-242). -/
def bayesianTriples (D : OptionSpace) (it : Option IxType) : Option (List CTE) :=
  (D.containers.mapM fun c =>
    (it.bind (compatibleTraversals c)).map fun ts =>
      (D.traversals.filter fun t => ts.contains t).flatMap fun t => (applicableLoadEstimators c t D.loadEstimators).map fun e => (c, t, e)).map List.flatten

/-- The encoder after the constructors, BayesianSearch.cpp:13-66, BayesianClusterSearch.cpp:13-76. `_encoder()` is default constructed, so its `_interactionType`
(FeatureVectorEncoder.h:211) is unset; `setAllowedOptions` (FeatureVectorEncoder.cpp:21-38) does not set it. -/
def bayesianEncoder (D : OptionSpace) (it : Option IxType) : Outcome (Encoder CTE Layout Bool) :=
  match bayesianTriples D it with
  | none => .throws
  | some ctes =>
    if ctes.isEmpty || D.cellSizeFactors.isEmpty || D.dataLayouts.isEmpty || D.newton3s.isEmpty then .throws
    else .ok ⟨ctes, D.dataLayouts, D.newton3s, unsetInteractionType⟩

/-- `createFallBackConfiguration`, MPIParallelizedStrategy.cpp:69-100. -/
def fallBackConfiguration (S : List (Configuration Rat)) (it : Option IxType) : Configuration Rat where
  container := Cont.linkedCells.value
  traversal := if it = some .triwise then Trav.lc_c01.value else Trav.lc_c08.value
  loadEstimator := LoadEst.none.value
  dataLayout := if S.any fun c => decide (c.dataLayout = Layout.soa.value) then Layout.soa.value else Layout.aos.value
  newton3 := if S.any fun c => decide (c.newton3 = 1) then 1 else 0
  cellSizeFactor := 1
  interactionType := ixValue it

/-- `generateTuningStrategy`, TuningStrategyFactory.cpp:42-148, and the constructor of `ActiveHarmony`, ActiveHarmony.cpp:15-41. -/
def generateTuningStrategy (S : List (Configuration Rat)) (o : StrategyOpt) (info : FactoryInfo) : Outcome BuiltStrategy :=
  let D := inferOptionDimensions S
  match o with
  | .randomSearch => .ok (.randomSearch info.maxEvidence)
  | .fullSearch => .throws
  | .bayesianSearch => (bayesianEncoder D info.interactionType).bind fun e => .ok (.bayesianSearch e D.cellSizeFactors info.maxEvidence)
  | .bayesianClusterSearch => (bayesianEncoder D info.interactionType).bind fun e => .ok (.bayesianClusterSearch e D.cellSizeFactors info.maxEvidence)
  | .activeHarmony =>
    let p : HarmonyParams := ⟨D.containers, .finite D.cellSizeFactors, D.traversals, D.loadEstimators, D.dataLayouts, D.newton3s, ixValue info.interactionType,
      info.harmonyHost && info.mpiDivideAndConquer⟩
    if p.isEmpty then .throws else .ok (.activeHarmony p)
  | .predictiveTuning => .ok .predictiveTuning
  | .ruleBasedTuning => .ok (.ruleBasedTuning S)
  | .fuzzyTuning => .ok .fuzzyTuning
  | .mpiDivideAndConquer => if info.internode then .ok (.mpiParallelized (fallBackConfiguration S info.interactionType)) else .throws
  | .slowConfigFilter => .ok .slowConfigFilter
  | .sortByName => .ok .sortByName
  | .tuningStrategyLogger => .throws

/-- A loop whose body may throw. -/
def outcomeMap {α β : Type} (f : α → Outcome β) : List α → Outcome (List β)
  | [] => .ok []
  | a :: as => (f a).bind fun b => (outcomeMap f as).bind fun bs => .ok (b :: bs)

/-- What the user has set, AutoPasDecl.h. -/
structure InitOptions where
  interactionTypes : List IxType
  containers : List Cont
  loadEstimators : List LoadEst
  cellSizeFactors : List Rat
  traversals : IxType → List Trav
  dataLayouts : IxType → List Layout
  newton3 : IxType → List Bool
  strategies : List StrategyOpt
  maxEvidence : Nat
  harmonyHost : Bool
  internode : Bool

/-- `_tuningStrategyFactoryInfo` in `init`, AutoPasImpl.h:79-82, AutoPasDecl.h:1094: there is no assignment to its member `interactionType` anywhere. -/
def InitOptions.factoryInfo (a : InitOptions) : FactoryInfo :=
  ⟨none, a.maxEvidence, a.strategies.contains .mpiDivideAndConquer, a.harmonyHost, a.internode⟩

/-- The loop of `init`, AutoPasImpl.h:101-120: for every interaction type the search space and the strategies of the tuner. -/
def autoPasInit (a : InitOptions) : Outcome (List (IxType × List (Configuration Rat) × List BuiltStrategy)) :=
  outcomeMap (fun it =>
    (cartesianProduct a.containers (a.traversals it) a.loadEstimators (a.dataLayouts it) (a.newton3 it) (.finite a.cellSizeFactors) it).bind fun S =>
      (outcomeMap (fun o => generateTuningStrategy S o a.factoryInfo) a.strategies).bind fun l => .ok (it, S, l)) a.interactionTypes

/-- The configuration that a feature vector is (`FeatureVector` is derived from `Configuration`). -/
def FeatureVector.config (v : FeatureVector CTE Layout Bool) : Configuration Rat where
  container := v.cte.1.value
  traversal := v.cte.2.1.value
  loadEstimator := v.cte.2.2.value
  dataLayout := v.dataLayout.value
  newton3 := if v.newton3 then 1 else 0
  cellSizeFactor := v.cellSizeFactor
  interactionType := v.interactionType

end Verif
