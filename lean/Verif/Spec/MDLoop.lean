import Verif.Model.MDLoop
/-!
# Time steps and recorded files, in words of the user
-/
namespace Verif.Spec
variable {σ : Type}

/-- Time step `k` up to the new forces: move the particles, balance the load in every `loadBalancingInterval`-th step, exchange particles, compute forces.
With a time step size of zero the particles stay where they are. -/
def midStep (c : MDLoopConfig) (e : MDParts σ) (k : Nat) (s : σ) : σ :=
  if c.moving then
    e.forces (e.exchange (if c.loadBalancingInterval ∣ k then e.balance (e.move s) else e.move s))
  else e.forces s

/-- Time step `k`. -/
def timeStep (c : MDLoopConfig) (e : MDParts σ) (k : Nat) (s : σ) : σ :=
  if c.moving then
    if c.useThermostat = true ∧ c.thermostatInterval ∣ k then e.thermostat (e.kick (midStep c e k s)) else e.kick (midStep c e k s)
  else midStep c e k s

/-- The trajectory: the state after `n` time steps. -/
def trajectory (c : MDLoopConfig) (e : MDParts σ) (s : σ) : Nat → σ
  | 0 => s
  | n + 1 => timeStep c e n (trajectory c e s n)

/-- Time step `k` of the trajectory computes its forces in a tuning iteration. -/
def tunes (c : MDLoopConfig) (e : MDParts σ) (s : σ) (k : Nat) : Bool :=
  e.tuned (midStep c e k (trajectory c e s k))

/-- The number of tuning phases that end within the first `n` time steps: time steps that tune, followed by one that does not. -/
def phasesWithin (c : MDLoopConfig) (e : MDParts σ) (s : σ) (n : Nat) : Nat :=
  ((List.range (n - 1)).filter fun k => tunes c e s k && !tunes c e s (k + 1)).length

/-- After `n` time steps, everything is done that was asked for. -/
def done (c : MDLoopConfig) (e : MDParts σ) (s : σ) (n : Nat) : Prop :=
  c.iterations ≤ n ∧ c.tuningPhases ≤ phasesWithin c e s n

/-- A configuration whose intervals are positive where they are used. -/
structure Intervals (c : MDLoopConfig) : Prop where
  vtk : c.vtk = true → 0 < c.vtkWriteFrequency
  balance : c.moving = true → 0 < c.loadBalancingInterval
  thermostat : c.moving = true → c.useThermostat = true → 0 < c.thermostatInterval

end Verif.Spec
