import Verif.Model.Num
import Verif.Model.Outcome
import Mathlib.Algebra.Order.Field.Basic
import Mathlib.Logic.Function.Basic
/-!
# Time integration of md-flexible (single-site molecules)

/repo/examples/md-flexible/src/TimeDiscretization.cpp and /repo/examples/md-flexible/src/Simulation.cpp:212-310. `ι` are the owned particles of all
ranks (a particle keeps its identity when it changes the rank), `double` is a field `K`. The loops over all particles run in an arbitrary
order: `order` lists the particles in the order in which they are processed, whatever the threads and the container. Not modelled here: the periodic
boundary (the position of a particle is the position before it is wrapped around), halo particles (their forces are never used).
-/
namespace Verif

/-- The attributes of a particle that the integrator uses, /repo/src/autopas/particles/ParticleBase.h:42-57 and
/repo/applicationLibrary/molecularDynamics/molecularDynamicsLibrary/MoleculeLJ.h:  position, velocity, force, force of the previous time step. -/
structure Body (K : Type) where
  r : V3 K
  v : V3 K
  f : V3 K
  oldF : V3 K
deriving DecidableEq

/-- Configuration. `mass i` is `getMolMass` of the type of particle `i`. -/
structure Integrator (K ι : Type) where
  dt : K
  mass : ι → K
  globalForce : V3 K
  skinPerTimestep : K
  fastParticlesThrow : Bool

/-- What acts on the particles, as functions of all positions: the forces added by `computeInteractions` (Simulation.cpp:438-472, pairwise and triwise)
and the forces added by `reflectParticlesAtBoundaries` (Simulation.cpp:266-269). -/
structure Forces (K ι : Type) where
  interaction : (ι → V3 K) → ι → V3 K
  wall : (ι → V3 K) → ι → V3 K

section
variable {K ι : Type} [Field K] [LinearOrder K]

/-- A loop over all particles that changes every particle it comes to. -/
def forEachBody [DecidableEq ι] (g : ι → Body K → Body K) (order : List ι) (s : ι → Body K) : ι → Body K :=
  order.foldl (fun s i => Function.update s i (g i (s i))) s

/-- `displacement`, TimeDiscretization.cpp:32-39. -/
def Integrator.displacement (c : Integrator K ι) (i : ι) (p : Body K) : V3 K :=
  p.v.scale c.dt + p.f.scale (c.dt * c.dt / (2 * c.mass i))

/-- The body of the loop of `calculatePositionsAndResetForces`, TimeDiscretization.cpp:32-41, with `addRDistanceCheck`, ParticleBase.h:168-171,
201-205. -/
def Integrator.drift (c : Integrator K ι) (i : ι) (p : Body K) : Body K :=
  { p with oldF := p.f, f := c.globalForce, r := p.r + c.displacement i p }

/-- `not addRDistanceCheck(...) and maxAllowedDistanceMovedSquared > 0`, TimeDiscretization.cpp:25-26 and 41-42, ParticleBase.h:168-179: the check is
off if the square of the allowed distance is not more than `1e-12`. -/
def Integrator.tooFast (c : Integrator K ι) (i : ι) (p : Body K) : Bool :=
  let limit := (c.skinPerTimestep / 2) * (c.skinPerTimestep / 2)
  let distanceVec := p.r + c.displacement i p - p.r
  let distanceIsFine := decide (distanceVec.inner distanceVec < limit) || decide (|limit - 0| ≤ 1 / 1000000000000)
  !distanceIsFine && decide (0 < limit)

/-- `calculatePositionsAndResetForces`, TimeDiscretization.cpp:17-59. The exception is thrown after the loop. -/
def Integrator.updatePositions [DecidableEq ι] (c : Integrator K ι) (order : List ι) (s : ι → Body K) : Outcome (ι → Body K) :=
  if order.any (fun i => c.tooFast i (s i)) && c.fastParticlesThrow then .throws else .ok (forEachBody c.drift order s)

/-- `computeInteractions` or `reflectParticlesAtBoundaries`: adds a force to every particle that depends on the positions only. -/
def addForces (g : (ι → V3 K) → ι → V3 K) (s : ι → Body K) : ι → Body K :=
  fun i => { s i with f := (s i).f + g (fun j => (s j).r) i }

/-- The body of the loop of `calculateVelocities`, TimeDiscretization.cpp:149-153. -/
def Integrator.kick (c : Integrator K ι) (i : ι) (p : Body K) : Body K :=
  { p with v := p.v + (p.f + p.oldF).scale (c.dt / (2 * c.mass i)) }

/-- `calculateVelocities`, TimeDiscretization.cpp:142-155. -/
def Integrator.updateVelocities [DecidableEq ι] (c : Integrator K ι) (order : List ι) (s : ι → Body K) : ι → Body K :=
  forEachBody c.kick order s

/-- One iteration of `Simulation::run`, Simulation.cpp:222-289, without thermostat, with `deltaT != 0` and not paused. -/
def Integrator.iteration [DecidableEq ι] (c : Integrator K ι) (F : Forces K ι) (order order' : List ι) (s : ι → Body K) : Outcome (ι → Body K) :=
  (c.updatePositions order s).bind fun s1 =>
    .ok (c.updateVelocities order' (addForces F.interaction (addForces F.wall s1)))

/-- Any number of iterations; in each, both loops in their own order. -/
def Integrator.run [DecidableEq ι] (c : Integrator K ι) (F : Forces K ι) : List (List ι × List ι) → (ι → Body K) → Outcome (ι → Body K)
  | [], s => .ok s
  | o :: os, s => (c.iteration F o.1 o.2 s).bind (c.run F os)

/-- The forces of the particles that an `Object` of the configuration generates are zero,
/repo/examples/md-flexible/src/configuration/objects/Object.h:44-50, and nothing computes forces before the loop, Simulation.cpp:187-218. -/
def Body.generated (r v : V3 K) : Body K := ⟨r, v, 0, 0⟩

/-! ### Pausing the simulation in tuning phases -/

/-- State of the time loop that matters for pausing, Simulation.h: `_simulationIsPaused`, `_currentIterationIsTuningIteration`. -/
structure PauseState (K ι : Type) where
  s : ι → Body K
  paused : Bool
  current : Bool

/-- One iteration of the environment: the orders of the loops, whether `computeInteractions` reports a tuning iteration, and what it reports
when it is called again at the end of a tuning phase. -/
structure PauseInput (ι : Type) where
  order : List ι
  order' : List ι
  tuning : Bool
  again : Bool

/-- One iteration with `pauseSimulationDuringTuning`, Simulation.cpp:222-289, 438-472 (`updateInteractionForces`) and 561-583
(`updateSimulationPauseState`). -/
def Integrator.pauseIteration [DecidableEq ι] (c : Integrator K ι) (F : Forces K ι) (st : PauseState K ι) (inp : PauseInput ι) :
    Outcome (PauseState K ι) :=
  (if st.paused then .ok st.s else (c.updatePositions inp.order st.s).bind fun s => .ok (addForces F.wall s)).bind fun s1 =>
    -- updateInteractionForces
    let s2 := addForces F.interaction s1
    let previous := st.current
    let current := inp.tuning
    -- updateSimulationPauseState
    let paused := if current && !previous then true else st.paused
    let ends := previous && !current
    let s3 := if ends then addForces F.interaction (fun i => { s2 i with f := c.globalForce }) else s2
    let current := if ends then inp.again else current
    let paused := if ends then false else paused
    .ok ⟨if paused then s3 else c.updateVelocities inp.order' s3, paused, current⟩

/-- Any number of iterations with `pauseSimulationDuringTuning`. -/
def Integrator.pauseRun [DecidableEq ι] (c : Integrator K ι) (F : Forces K ι) : List (PauseInput ι) → PauseState K ι → Outcome (PauseState K ι)
  | [], st => .ok st
  | i :: is, st => (c.pauseIteration F st i).bind (c.pauseRun F is)

end
end Verif
