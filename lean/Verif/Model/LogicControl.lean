import Verif.Model.AutoTuner
/-!
Model of the control part of /repo/src/autopas/LogicHandler.h: when neighbour lists are invalidated, rebuilt and used, and
when the container is exchanged. What happens to the particles is in Model/LogicHandler.lean.

Every container object that is created gets a fresh number (`gen`); the operations emit the observable events.
-/
namespace Verif

/-- `InteractionTypeOption`. -/
inductive IType
  | pairwise | triwise
deriving DecidableEq, Repr

/-- Observable events: the user's call of `updateContainer`, `container.rebuildNeighborLists` and
`container.computeInteractions` on the container object number `gen`. -/
inductive Event
  | update
  | built (gen : Nat)
  | used (gen : Nat)
deriving DecidableEq, Repr

/-- Results of `isConfigurationApplicable`, LogicHandler.h:1676-1723: rejected for ever before the container is touched
(:1681-1692), container selected but traversal not applicable (:1719), applicable. -/
inductive Verdict
  | incompatible | notApplicable | applicable
deriving DecidableEq, Repr

/-- Constants: the tuners' constants, `_neighborListRebuildFrequency`, and the container type and the remaining container
parameters (cell size factor, load estimator) of a configuration. -/
structure CtlCfg (σ C : Type) where
  tuner : IType → TunerCfg σ C
  rebuildFrequency : Nat
  ctype : C → Nat
  cinfo : C → Nat

/-- Members of `LogicHandler` (LogicHandler.h:870-960) and of its `ContainerSelector` that matter for control. -/
structure Ctl (σ C : Type) where
  /-- `_autoTunerRefs` and `_interactionTypes` -/
  tuners : IType → Option (Tuner σ C)
  /-- `_neighborListsAreValid` -/
  valid : Bool
  /-- `_stepsSinceLastListRebuild` -/
  steps : Nat
  /-- `_functorCalls` -/
  functorCalls : Nat
  /-- type and parameters of the current container -/
  ctype : Nat
  cinfo : Nat
  /-- number of the current container object -/
  gen : Nat

variable {σ C : Type} [DecidableEq C]

/-- State after the constructor, LogicHandler.h:56-94 (member initialisers :903-913). The container of the last tuner's first
configuration has been selected; which one does not matter here. -/
def Ctl.init (tuners : IType → Option (Tuner σ C)) (ctype cinfo : Nat) : Ctl σ C :=
  { tuners := tuners, valid := false, steps := 0, functorCalls := 0, ctype := ctype, cinfo := cinfo, gen := 0 }

/-- `needRebuild`, LogicHandler.h:986-989. -/
def Ctl.needRebuild (cfg : CtlCfg σ C) (s : Ctl σ C) (ty : IType) : Bool :=
  match s.tuners ty with
  | some t => t.willRebuild (cfg.tuner ty)
  | none => false

/-- `neighborListsAreValid`, LogicHandler.h:984-997. -/
def Ctl.checkLists (cfg : CtlCfg σ C) (s : Ctl σ C) : Ctl σ C :=
  if s.steps ≥ cfg.rebuildFrequency ∨ s.needRebuild cfg .pairwise ∨ s.needRebuild cfg .triwise then { s with valid := false }
  else s

/-- `checkTuningStates` for one other interaction type, LogicHandler.h:541-547. -/
def Ctl.otherTuning (cfg : CtlCfg σ C) (s : Ctl σ C) (other : IType) : Bool :=
  match s.tuners other with
  | some t => t.inTuningPhase (cfg.tuner other)
  | none => false

/-- One iteration of the loop over the tuners in `updateContainer`, LogicHandler.h:165-168. -/
def Ctl.bumpTuner (cfg : CtlCfg σ C) (s : Ctl σ C) (ty other : IType) : Ctl σ C :=
  match s.tuners ty with
  | some t =>
    { s with tuners := fun ty' => if ty' = ty then some (t.bump (cfg.tuner ty) (s.otherTuning cfg other)) else s.tuners ty' }
  | none => s

/-- `updateContainer` without the particles, LogicHandler.h:160-177. The order of the tuners in the `unordered_map` is
unspecified; the model takes pairwise first. -/
def Ctl.update (cfg : CtlCfg σ C) (s : Ctl σ C) : Ctl σ C :=
  let s := s.checkLists cfg
  if s.functorCalls > 0 then
    let s := s.bumpTuner cfg .pairwise .triwise
    let s := s.bumpTuner cfg .triwise .pairwise
    { s with steps := (if s.valid then s.steps else 0) + 1 }
  else s

/-- `ContainerSelector::selectContainer`, /repo/src/autopas/tuning/selectors/ContainerSelector.h:206-214. -/
def Ctl.selectContainer (s : Ctl σ C) (ctype cinfo : Nat) : Ctl σ C :=
  if s.ctype ≠ ctype ∨ s.cinfo ≠ cinfo then { s with ctype := ctype, cinfo := cinfo, gen := s.gen + 1 } else s

/-- The loop of `selectConfiguration` for a functor that is relevant for tuning, LogicHandler.h:1569-1583, for at most `fuel`
rejections: the tuner afterwards, whether it is still tuning, and the configurations whose container was selected by
`isConfigurationApplicable` (:1695), in order. -/
def selectLoop (cfg : TunerCfg σ C) (verdict : C → Verdict) :
    Nat → Tuner σ C → C → Bool → Outcome (Tuner σ C × Bool × List C)
  | 0, _, _, _ => .diverges
  | fuel + 1, t, c, stillTuning =>
    match verdict c with
    | .incompatible => (t.rejectConfig cfg c true).bind fun r => selectLoop cfg verdict fuel r.1 r.2.1 r.2.2
    | .notApplicable =>
      (t.rejectConfig cfg c false).bind fun r =>
        (selectLoop cfg verdict fuel r.1 r.2.1 r.2.2).bind fun q => .ok (q.1, q.2.1, c :: q.2.2)
    | .applicable => .ok (t, stillTuning, [c])

/-- The tuner's part of `selectConfiguration` for a relevant functor, LogicHandler.h:1562-1583. -/
def Tuner.select (cfg : TunerCfg σ C) (fuel : Nat) (t : Tuner σ C) (verdict : C → Verdict) :
    Outcome (Tuner σ C × Bool × List C) :=
  (t.getNextConfig cfg).bind fun r => selectLoop cfg verdict fuel r.1 r.2.1 r.2.2

/-- Passing on the measurement, LogicHandler.h:1648-1669. -/
def Tuner.measure (cfg : TunerCfg σ C) (t : Tuner σ C) (relevant stillTuning : Bool) (time : Int) (rebuilt : Bool) :
    Outcome (Tuner σ C) :=
  if relevant ∧ stillTuning then t.addMeasurement cfg time rebuilt else .ok t

/-- `selectConfiguration`, LogicHandler.h:1507-1594. For a functor that is not relevant for tuning the container is only
exchanged if its type differs (:1523), and a non-applicable traversal is an error (`traversalPtrOpt.value()`, :1593). -/
def Ctl.selectConfiguration (cfg : CtlCfg σ C) (fuel : Nat) (s : Ctl σ C) (ty : IType) (t : Tuner σ C) (relevant : Bool)
    (verdict : C → Verdict) : Outcome (Ctl σ C × Tuner σ C × Bool) :=
  if !relevant then
    t.currentConfig.bind fun c =>
      let s := if s.ctype ≠ cfg.ctype c then s.selectContainer (cfg.ctype c) (cfg.cinfo c) else s
      if verdict c = .applicable then .ok (s, t, false) else .throws
  else
    (t.select (cfg.tuner ty) fuel verdict).bind fun r =>
      .ok (r.2.2.foldl (fun s c => s.selectContainer (cfg.ctype c) (cfg.cinfo c)) s, r.1, r.2.1)

/-- `computeInteractionsPipeline` with `computeInteractions`, LogicHandler.h:1598-1672 and :1056-1079. `time` is the measured
runtime. -/
def Ctl.compute (cfg : CtlCfg σ C) (fuel : Nat) (s : Ctl σ C) (ty : IType) (relevant : Bool) (verdict : C → Verdict)
    (time : Int) : Outcome (Ctl σ C × List Event) :=
  match s.tuners ty with
  | none => .throws
  | some t =>
    (s.selectConfiguration cfg fuel ty t relevant verdict).bind fun r =>
      let s := r.1
      let doListRebuild := !s.valid
      let events := (if doListRebuild then [Event.built s.gen] else []) ++ [Event.used s.gen]
      (r.2.1.measure (cfg.tuner ty) relevant r.2.2 time doListRebuild).bind fun t' =>
        .ok ({ s with valid := true, functorCalls := s.functorCalls + 1
                      tuners := fun ty' => if ty' = ty then some t' else s.tuners ty' }, events)

/-- User visible operations that influence control. `resizeBox false` is a call with the unchanged box. -/
inductive Action (C : Type)
  | update
  | compute (ty : IType) (relevant : Bool) (verdict : C → Verdict) (time : Int)
  | resizeBox (changed : Bool)
  | deleteAll
  | forceRetune

/-- One operation: `updateContainer` (:160), `computeInteractions` (:1598), `resizeBox` (:200-266; it creates a new container,
ContainerSelector.h:63-68), `deleteAllParticles` (:361-369), `AutoPas::forceRetune` (/repo/src/autopas/AutoPasImpl.h:244-248). -/
def Ctl.step (cfg : CtlCfg σ C) (fuel : Nat) (s : Ctl σ C) : Action C → Outcome (Ctl σ C × List Event)
  | .update => .ok (s.update cfg, [.update])
  | .compute ty relevant verdict time => s.compute cfg fuel ty relevant verdict time
  | .resizeBox changed => .ok (if changed then { s with valid := false, gen := s.gen + 1 } else s, [])
  | .deleteAll => .ok ({ s with valid := false }, [])
  | .forceRetune => .ok ({ s with tuners := fun ty => (s.tuners ty).map (·.forceRetuning (cfg.tuner ty)) }, [])

/-- A history of operations and the events it causes. -/
def Ctl.run (cfg : CtlCfg σ C) (fuel : Nat) (s : Ctl σ C) : List (Action C) → Outcome (Ctl σ C × List Event)
  | [] => .ok (s, [])
  | a :: as => (s.step cfg fuel a).bind fun r => (r.1.run cfg fuel as).bind fun r' => .ok (r'.1, r.2 ++ r'.2)

end Verif
