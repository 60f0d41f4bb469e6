import Verif.Model.Quaternion
/-!
# Rotational time integration of md-flexible (multi-site molecules)

/repo/examples/md-flexible/src/TimeDiscretization.cpp:61-140 and 157-187, for one molecule: the loops over the molecules treat every molecule on its own.
`double` is an ordered field `K` with a square root. A quaternion with components that are not finite (`normalize` of zero) is reported as `.ub`.
-/
namespace Verif

/-- The attributes of a molecule that matter for rotation, /repo/applicationLibrary/molecularDynamics/molecularDynamicsLibrary/MultisiteMoleculeLJ.h. -/
structure Rotor (K : Type) where
  q : Q4 K
  angVel : V3 K
  torque : V3 K
deriving DecidableEq

/-- The time step, the moments of inertia and the site positions of the type of the molecule, the global force. -/
structure RotInt (K : Type) where
  sqrt : K → K
  dt : K
  inertia : V3 K
  sites : List (V3 K)
  globalForce : V3 K
  /-- `std::numeric_limits<double>::epsilon()` -/
  eps : K

/-- `ArrayMath::div` / `operator/`: componentwise quotient. -/
def V3.quot {K : Type} [Div K] (a b : V3 K) : V3 K := ⟨a.x / b.x, a.y / b.y, a.z / b.z⟩

section
variable {K : Type} [Field K] [LinearOrder K]

/-- `normalize`, /repo/src/autopas/utils/ArrayMath.h:304-306. -/
def RotInt.normalize (c : RotInt K) (a : Q4 K) : Outcome (Q4 K) :=
  if c.sqrt (a.inner a) = 0 then .ub else .ok (a.scale (1 / c.sqrt (a.inner a)))

/-- `tol`, TimeDiscretization.cpp:79. -/
def rotTol : K := 1 / 10000000000000

/-- `derivativeQHalfStep` in the loop, TimeDiscretization.cpp:111-113. -/
def RotInt.derivative (angVelWHalfStep : V3 K) (qHalfStepOld : Q4 K) : Q4 K :=
  (qMulVec qHalfStepOld (rotatePositionBackwards qHalfStepOld angVelWHalfStep)).scale (1 / 2)

/-- The loop, TimeDiscretization.cpp:109-115: quaternion of the half step and derivative after at most `fuel` iterations. -/
def RotInt.iterate (c : RotInt K) (q : Q4 K) (angVelWHalfStep : V3 K) : Nat → Q4 K → Q4 K → Q4 K → Outcome (Q4 K)
  | fuel, qHalfStep, qHalfStepOld, derivative =>
    if (qHalfStep - qHalfStepOld).inner (qHalfStep - qHalfStepOld) ≤ rotTol * rotTol then .ok derivative
    else match fuel with
      | 0 => .diverges
      | fuel + 1 =>
        let d := RotInt.derivative angVelWHalfStep qHalfStep
        (c.normalize (q + d.scale (1 / 2 * c.dt))).bind fun q' => c.iterate q angVelWHalfStep fuel q' qHalfStep d

/-- The torque of the global force, TimeDiscretization.cpp:124-133. -/
def RotInt.globalTorque (c : RotInt K) (q : Q4 K) : V3 K :=
  if c.eps < |c.globalForce.x| ∨ c.eps < |c.globalForce.y| ∨ c.eps < |c.globalForce.z| then
    (rotateVectorOfPositions q c.sites).foldl (fun t p => t + p.cross c.globalForce) 0
  else 0

/-- `angVelWHalfStep`, TimeDiscretization.cpp:86-90 and 102. -/
def RotInt.halfAngVel (c : RotInt K) (m : Rotor K) : V3 K :=
  m.angVel + (rotatePosition m.q ((rotatePositionBackwards m.q m.torque).quot c.inertia)).scale (1 / 2 * c.dt)

/-- The first guess of the derivative, TimeDiscretization.cpp:85-98. -/
def RotInt.firstDerivative (c : RotInt K) (m : Rotor K) : Q4 K :=
  let angVelM := rotatePositionBackwards m.q m.angVel
  let torqueM := rotatePositionBackwards m.q m.torque
  let angMomentumM := c.inertia * angVelM
  let derivativeAngMomentumM := torqueM - angVelM.cross angMomentumM
  let angMomentumMHalfStep := angMomentumM + derivativeAngMomentumM.scale (1 / 2 * c.dt)
  (qMulVec m.q (angMomentumMHalfStep.quot c.inertia)).scale (1 / 2)

/-- The body of the loop of `calculateQuaternionsAndResetTorques`, TimeDiscretization.cpp:84-133. -/
def RotInt.updateQuaternion (c : RotInt K) (fuel : Nat) (m : Rotor K) : Outcome (Rotor K) :=
  let d := c.firstDerivative m
  (c.normalize (m.q + d.scale (1 / 2 * c.dt))).bind fun qHalfStep =>
  let angVelWHalfStep := c.halfAngVel m
  let qHalfStepOld : Q4 K := { qHalfStep with w := qHalfStep.w + 2 * rotTol }
  (c.iterate m.q angVelWHalfStep fuel qHalfStep qHalfStepOld d).bind fun d =>
  (c.normalize (m.q + d.scale c.dt)).bind fun qFullStep =>
  .ok ⟨qFullStep, angVelWHalfStep, c.globalTorque qFullStep⟩

/-- `computeInteractions` and the reflective walls add a torque. -/
def Rotor.addTorque (m : Rotor K) (t : V3 K) : Rotor K := { m with torque := m.torque + t }

/-- The body of the loop of `calculateAngularVelocities`, TimeDiscretization.cpp:167-180. -/
def RotInt.updateAngularVelocity (c : RotInt K) (m : Rotor K) : Rotor K :=
  let torqueM := rotatePositionBackwards m.q m.torque
  let torqueDivMoIM := torqueM.quot c.inertia
  let torqueDivMoIW := rotatePosition m.q torqueDivMoIM
  { m with angVel := m.angVel + (torqueDivMoIW.scale (1 / 2)).scale c.dt }

/-- What rotation sees of an iteration of `Simulation::run`, /repo/examples/md-flexible/src/Simulation.cpp:222-289. `t` is the torque of interactions and walls. -/
def RotInt.iteration (c : RotInt K) (fuel : Nat) (t : V3 K) (m : Rotor K) : Outcome (Rotor K) :=
  (c.updateQuaternion fuel m).bind fun m => .ok (c.updateAngularVelocity (m.addTorque t))

/-- Any number of iterations; the torques may depend on everything that happened before. -/
def RotInt.run (c : RotInt K) (fuel : Nat) : List (V3 K) → Rotor K → Outcome (Rotor K)
  | [], m => .ok m
  | t :: ts, m => (c.iteration fuel t m).bind (c.run fuel ts)

/-- A tuning phase with `pauseSimulationDuringTuning`: a first iteration that still moves the molecule, iterations at rest, then the last iteration, in which the
interactions are computed once more; Simulation.cpp:222-289 and 562-583. Forces are reset at the end, torques are not. `t` is the torque at the
(resting) position. -/
def RotInt.tuningPhase (c : RotInt K) (fuel : Nat) (t : V3 K) (pausedIterations : Nat) (m : Rotor K) : Outcome (Rotor K) :=
  (c.updateQuaternion fuel m).bind fun m =>
    let m := m.addTorque t
    let m := (List.range pausedIterations).foldl (fun m _ => m.addTorque t) m
    -- the last iteration: updateInteractionForces, and again in updateSimulationPauseState
    let m := (m.addTorque t).addTorque t
    .ok (c.updateAngularVelocity m)

end
end Verif
