import Verif.Model.Thermostat
import Verif.Spec.LennardJones
/-! Temperature of a set of particles (Boltzmann constant 1, three degrees of freedom), and what a thermostat does to it. -/
namespace Verif.Spec
variable {K : Type} [Field K] [LinearOrder K]

/-- A particle with a finite velocity: type and velocity. -/
structure Mover (K : Type) where
  type : Nat
  v : V3 K

/-- `Σ m v² / (3 N)` over the particles of type `t`. -/
def temperatureOf (mass : Nat → K) (t : Nat) (l : List (Mover K)) : K :=
  ((l.filter fun p => p.type = t).map fun p => mass p.type * normSq p.v).sum / (3 * (l.filter fun p => p.type = t).length)

/-- From `T` towards `target`, by `δ` at most. -/
def towards (target δ T : K) : K := if |target - T| ≤ δ then target else if T < target then T + δ else T - δ

/-- `sqrt` is the square root. -/
structure SqrtLaws (sqrt : K → Num K) : Prop where
  nonneg : ∀ x, 0 ≤ x → ∃ y, sqrt x = .fin y ∧ 0 ≤ y ∧ y ^ 2 = x

/-- All owned and halo particles of the simulation have finite velocities, those of `l`. -/
def Contains (ranks : List (ThermoRank K)) (l : List (Mover K)) : Prop :=
  (ranks.flatten.flatten.filter fun p => p.visited).map (fun p => (p.type, p.v)) = l.map fun q => (q.type, q.v.fin)

end Verif.Spec
