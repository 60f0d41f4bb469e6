import Verif.Model.SearchSpace
import Verif.Model.AutoTuner
/-!
Model of /repo/src/autopas/tuning/tuningStrategy/ActiveHarmony.{h,cpp} with `AUTOPAS_ENABLE_HARMONY`. The Active Harmony library and its server are an
arbitrary machine `HarmonyServer`. Not modelled: setting up the session (`setupTuningParameters`, `resetHarmony`) beyond whether there is one, MPI barriers.
-/
namespace Verif

/-- What `ActiveHarmony.cpp` uses of the library: `ah_fetch`, `ah_get_enum`/`ah_get_real` of the current point, `ah_converged`, `ah_best`, `ah_report`.
The cell size factor is given as its value; the library gets it, and returns it, as a string (`csfThroughString`). -/
structure HarmonyServer (S : Type) where
  fetch : S → Int × S
  traversal : S → Trav
  dataLayout : S → Layout
  newton3 : S → Bool
  loadEstimator : S → LoadEst
  cellSizeFactor : S → Rat
  converged : S → Bool
  best : S → Int × S
  report : S → Int → Int × S

/-- Members of `ActiveHarmony`, ActiveHarmony.h:96-108. The sets are lists without duplicates; `interactionType` is the value
of the enumerator, which need not be a valid one (C128). -/
structure HarmonyParams where
  containers : List Cont
  cellSizeFactors : CsfSet
  traversals : List Trav
  loadEstimators : List LoadEst
  dataLayouts : List Layout
  newton3s : List Bool
  interactionType : Nat
  nonLocalServer : Bool

/-- `searchSpaceIsEmpty`, ActiveHarmony.cpp:282-286. -/
def HarmonyParams.isEmpty (p : HarmonyParams) : Bool :=
  p.containers.isEmpty || (match p.cellSizeFactors with | .finite l => l.isEmpty | .interval _ _ => false) || p.traversals.isEmpty ||
    p.dataLayouts.isEmpty || p.newton3s.isEmpty

/-- `searchSpaceIsTrivial`, ActiveHarmony.cpp:271-280. An interval is finite if its bounds are equal (/repo/src/autopas/utils/NumberInterval.h:66). -/
def HarmonyParams.isTrivial (p : HarmonyParams) : Bool :=
  if p.isEmpty then false
  else p.containers.length == 1 && (match p.cellSizeFactors with | .finite l => l.length == 1 | .interval lo hi => lo == hi) && p.traversals.length == 1 &&
    p.dataLayouts.length == 1 && p.newton3s.length == 1

/-- `fetchTuningParameter`, ActiveHarmony.cpp:72-84. Without options the result is an uninitialised variable. -/
def fetchTuningParameter {α : Type} (options : List α) (fromServer : α) : Outcome α :=
  match options with
  | [] => .ub
  | [a] => .ok a
  | _ => .ok fromServer

/-- `allCompatibleContainers`, /repo/src/autopas/containers/CompatibleTraversals.h:252-265. -/
def allCompatibleContainers (t : Trav) : List Cont :=
  Cont.values.filter fun c => [IxType.pairwise, IxType.triwise].any fun it => ((compatibleTraversals c it).getD []).contains t

/-- `std::to_string(double)`, ActiveHarmony.cpp:303, and `std::strtod`, :102: six digits after the decimal point (ties are rounded up here). -/
def csfThroughString (x : Rat) : Rat := (⌊x * 1000000 + 1 / 2⌋ : Int) / 1000000

/-- The cell size factor of `fetchConfiguration`, ActiveHarmony.cpp:96-106. -/
def fetchCellSizeFactor (p : HarmonyParams) (fromServer : Rat) : Rat :=
  match p.cellSizeFactors with
  | .finite [] => 0
  | .finite [f] => f
  | .finite _ => csfThroughString fromServer
  | .interval lo hi => if lo = hi then lo else fromServer

/-- `fetchConfiguration`, ActiveHarmony.cpp:86-113. `*begin()` of an empty set is undefined. -/
def fetchHarmonyConfiguration {S : Type} (p : HarmonyParams) (srv : HarmonyServer S) (s : S) : Outcome (Configuration Rat) :=
  (fetchTuningParameter p.traversals (srv.traversal s)).bind fun t =>
  (fetchTuningParameter p.dataLayouts (srv.dataLayout s)).bind fun d =>
  (fetchTuningParameter p.newton3s (srv.newton3 s)).bind fun n =>
  match allCompatibleContainers t with
  | [] => .ub
  | c :: _ =>
    (fetchTuningParameter (applicableLoadEstimators c t p.loadEstimators) (srv.loadEstimator s)).bind fun e =>
    .ok { (⟨c, fetchCellSizeFactor p (srv.cellSizeFactor s), t, e, d, n, .pairwise⟩ : Options).config with interactionType := p.interactionType }

/-- The last evidence of a configuration if it is of the tuning phase, ActiveHarmony.cpp:143-145. -/
def evidenceOfPhase (phase : Nat) (es : List Evidence) : Option Evidence :=
  match es.getLast? with
  | some e => if e.tuningPhase = phase then some e else none
  | none => none

/-- The loop of `optimizeSuggestions`, ActiveHarmony.cpp:134-174, with at most `fuel` rounds (`.diverges` if they do not suffice). -/
def harmonyLoop {S : Type} (p : HarmonyParams) (srv : HarmonyServer S) (phase : Nat) (ev : Configuration Rat → List Evidence) (q : List (Configuration Rat)) :
    Nat → S → Outcome ((List (Configuration Rat) × Bool) × S)
  | 0, _ => .diverges
  | fuel + 1, s =>
    let f := srv.fetch s
    if f.1 < 0 then .throws
    else (fetchHarmonyConfiguration p srv f.2).bind fun conf =>
      let known := evidenceOfPhase phase (ev conf)
      (match known with
        | none => (.ok f.2 : Outcome S)
        | some e => let r := srv.report f.2 e.value; if r.1 ≠ 0 then .throws else .ok r.2).bind fun s2 =>
      if srv.converged s2 then
        let b := srv.best s2
        if b.1 ≠ 0 then .throws
        else if q.any fun c => c.eq conf then .ok ((q, false), b.2)
        else if p.nonLocalServer then .ok ((q, false), b.2)
        else harmonyLoop p srv phase ev q fuel b.2
      else if p.nonLocalServer then .ok ((q, false), s2)
      else if known.isSome then harmonyLoop p srv phase ev q fuel s2
      else .ok ((q, false), s2)

/-- `optimizeSuggestions`, ActiveHarmony.cpp:131-178. `_tuningPhase` is 0 and never changes (ActiveHarmony.h:105; `reset`, ActiveHarmony.cpp:199-204). For
a trivial or empty search space there is no session (`resetHarmony`, :222-228), and `ah_fetch` is called with a null pointer. -/
def harmonyOptimize {S : Type} (p : HarmonyParams) (srv : HarmonyServer S) (fuel : Nat) (s : S) (q : List (Configuration Rat))
    (ev : Configuration Rat → List Evidence) : Outcome ((List (Configuration Rat) × Bool) × S) :=
  if p.isTrivial || p.isEmpty then .ub else harmonyLoop p srv 0 ev q fuel s

/-- ActiveHarmony as a strategy of the tuner; the states are those of the server, `restart` is `resetHarmony`. A call that does not return ends the run of the
program; here it leaves everything as it is. -/
def harmonyStrategy {S : Type} (p : HarmonyParams) (srv : HarmonyServer S) (restart : S → S) (fuel : Nat) : Strategy S (Configuration Rat) where
  reset s _ _ q _ := ((q, false), restart s)
  optimize s q ev :=
    match harmonyOptimize p srv fuel s q (getEvidence ev) with
    | .ok r => r
    | _ => ((q, false), s)
  addEvidence s _ e := if p.isTrivial || p.isEmpty then s else (srv.report s e.value).2
  reject s _ _ := restart (if p.isTrivial || p.isEmpty then s else (srv.report s longMax).2)

end Verif
