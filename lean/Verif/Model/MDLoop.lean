import Verif.Model.Outcome
/-!
# How long md-flexible simulates and what it records

/repo/examples/md-flexible/src/Simulation.cpp:212-310 (`run`), 438-472 (`updateInteractionForces`), 504-511 (`updateThermostat`), 561-583
(`updateSimulationPauseState`), 661-663 (`needsMoreIterations`).

The particles and everything AutoPas and the domain decomposition keep are one opaque state, on which the parts of a time step are arbitrary functions.
What the parts do is the subject of other properties. Timers and messages are left out. The writer is represented by the list of the states it is handed,
with the iteration that becomes the name of the file (ParallelVtkWriter.cpp:43-48, 438-442).
-/
namespace Verif

/-- The parts of a time step of `Simulation::run`. -/
structure MDParts (σ : Type) where
  /-- `updatePositionsAndResetForces`, `updateQuaternions`, `updateContainer`, Simulation.cpp:223-231 -/
  move : σ → σ
  /-- the periodic load balancing, :236-262 -/
  balance : σ → σ
  /-- `exchangeMigratingParticles`, `reflectParticlesAtBoundaries`, `exchangeHaloParticles`, :264-275 -/
  exchange : σ → σ
  /-- `calculatePairwiseForces`, `calculateTriwiseForces`, :446-455 -/
  forces : σ → σ
  /-- whether `forces`, which led to this state, was a tuning iteration: what `computeInteractions` returned -/
  tuned : σ → Bool
  /-- `setF(globalForce)` of all particles, :571-574 -/
  resetForces : σ → σ
  /-- `updateVelocities`, `updateAngularVelocities`, :287-290 -/
  kick : σ → σ
  /-- `Thermostat::apply`, :507 -/
  thermostat : σ → σ

/-- What `run` reads of the configuration. `moving` is `deltaT != 0`, `vtk` is `_createVtkFiles`. -/
structure MDLoopConfig where
  iterations : Nat
  tuningPhases : Nat
  vtk : Bool
  vtkWriteFrequency : Nat
  moving : Bool
  loadBalancingInterval : Nat
  useThermostat : Bool
  thermostatInterval : Nat
  pause : Bool

/-- The members of `Simulation` that `run` changes, with the calls of the writer, Simulation.h. -/
structure MDLoop (σ : Type) where
  s : σ
  iteration : Nat := 0
  paused : Bool := false
  current : Bool := false
  previous : Bool := false
  phases : Nat := 0
  records : List (Nat × σ) := []

variable {σ : Type}

/-- `x % m == 0`; the remainder by zero is undefined behaviour. -/
def isMultiple (x m : Nat) : Outcome Bool := if m = 0 then .ub else .ok (x % m == 0)

/-- `recordTimestep`, ParallelVtkWriter.cpp:43-48. -/
def MDLoop.record (l : MDLoop σ) : MDLoop σ := { l with records := l.records ++ [(l.iteration, l.s)] }

/-- `needsMoreIterations`, Simulation.cpp:661-663. -/
def MDLoop.needsMore (c : MDLoopConfig) (l : MDLoop σ) : Bool :=
  l.iteration < c.iterations || l.phases < c.tuningPhases

/-- Writing at the start of an iteration, Simulation.cpp:215-219. -/
def MDLoop.write (c : MDLoopConfig) (l : MDLoop σ) : Outcome (MDLoop σ) :=
  if c.vtk then (isMultiple l.iteration c.vtkWriteFrequency).bind fun b => .ok (if b then l.record else l) else .ok l

/-- Moving the particles, Simulation.cpp:222-278. -/
def MDLoop.moveAll (c : MDLoopConfig) (e : MDParts σ) (l : MDLoop σ) : Outcome (MDLoop σ) :=
  if c.moving && !l.paused then
    (isMultiple l.iteration c.loadBalancingInterval).bind fun b =>
      let s1 := e.move l.s
      .ok { l with s := e.exchange (if b then e.balance s1 else s1) }
  else .ok l

/-- `updateInteractionForces`, Simulation.cpp:438-472. -/
def MDLoop.updateForces (e : MDParts σ) (l : MDLoop σ) : MDLoop σ :=
  let s1 := e.forces l.s
  let previous := l.current
  let current := e.tuned s1
  { l with s := s1, previous := previous, current := current,
           phases := if !current && previous then l.phases + 1 else l.phases }

/-- `updateSimulationPauseState`, Simulation.cpp:561-583. -/
def MDLoop.updatePause (e : MDParts σ) (l : MDLoop σ) : MDLoop σ :=
  let l := if l.current && !l.previous then { l with paused := true } else l
  if l.previous && !l.current then { ({ l with s := e.resetForces l.s }).updateForces e with paused := false } else l

/-- Velocities and thermostat, Simulation.cpp:287-293, 504-511. -/
def MDLoop.finishStep (c : MDLoopConfig) (e : MDParts σ) (l : MDLoop σ) : Outcome (MDLoop σ) :=
  if c.moving && !l.paused then
    let s1 := e.kick l.s
    if c.useThermostat then
      (isMultiple l.iteration c.thermostatInterval).bind fun b => .ok { l with s := if b then e.thermostat s1 else s1 }
    else .ok { l with s := s1 }
  else .ok l

/-- One pass of the loop, Simulation.cpp:214-300. -/
def MDLoop.pass (c : MDLoopConfig) (e : MDParts σ) (l : MDLoop σ) : Outcome (MDLoop σ) :=
  (l.write c).bind fun l =>
    (l.moveAll c e).bind fun l =>
      let l := l.updateForces e
      let l := if c.pause then l.updatePause e else l
      (l.finishStep c e).bind fun l =>
        .ok (if l.paused then l else { l with iteration := l.iteration + 1 })

/-- The loop and the last record, Simulation.cpp:212-310, with room for `fuel` passes: `diverges` says that these were not enough. -/
def MDLoop.run (c : MDLoopConfig) (e : MDParts σ) : Nat → MDLoop σ → Outcome (MDLoop σ)
  | 0, _ => .diverges
  | fuel + 1, l =>
    if l.needsMore c then (l.pass c e).bind (MDLoop.run c e fuel)
    else .ok (if c.vtk then l.record else l)

/-- The state of the file of an iteration in the end: what was written last under its name. -/
def MDLoop.file (l : MDLoop σ) (k : Nat) : Option σ :=
  ((l.records.reverse.find? fun r => r.1 == k)).map Prod.snd

end Verif
