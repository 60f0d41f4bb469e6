import Verif.Model.Num
import Verif.Model.Outcome
import Verif.Model.Ownership
/-!
# The thermostat of md-flexible (single-site molecules)

/repo/examples/md-flexible/src/Thermostat.h. The particles of the simulation are given as `ranks` of `threads` of particles: which thread comes to which
particle of its rank is arbitrary, and so is the order in which the threads add their sums in the critical section. A map from type ids is a
function. `sqrt` is a parameter.
-/
namespace Verif

/-- What the thermostat reads and writes of a particle. -/
structure ThermoParticle (K : Type) where
  type : Nat
  v : V3 (Num K)
  own : Ownership
deriving DecidableEq

/-- The particles of a rank, by thread. -/
abbrev ThermoRank (K : Type) := List (List (ThermoParticle K))

/-- The registered types and their masses, `getNumberRegisteredSiteTypes` and `getMolMass`. -/
structure ThermoTypes (K : Type) where
  number : Nat
  mass : Nat → K

section
variable {K : Type} [Field K] [LinearOrder K]

/-- `autopas.begin()` comes to owned and halo particles: the default of the parameter is `ownedOrHalo`, /repo/src/autopas/AutoPasDecl.h:271-277. -/
def ThermoParticle.visited (p : ThermoParticle K) : Bool := fulfillsOwnership ibOwnedOrHalo p.own

/-- `getMolMass(typeId) * dot(vel, vel)`, Thermostat.h:107-109. -/
def ThermoTypes.energyMul2 (T : ThermoTypes K) (p : ThermoParticle K) : Num K := .fin (T.mass p.type) * p.v.inner p.v

/-- `kineticEnergyMul2MapThread[t]` at the end of the loop, Thermostat.h:99-117. -/
def ThermoTypes.threadEnergy (T : ThermoTypes K) (t : Nat) (l : List (ThermoParticle K)) : Num K :=
  (l.filter (·.visited)).foldl (fun e p => if p.type = t then e + T.energyMul2 p else e) 0

/-- `numParticleMapThread[t]` at the end of the loop, Thermostat.h:116. -/
def threadCount (t : Nat) (l : List (ThermoParticle K)) : Nat :=
  (l.filter (·.visited)).foldl (fun n p => if p.type = t then n + 1 else n) 0

/-- `kineticEnergyMul2Map[t]` after the reduction over the threads and `MPI_Allreduce`, Thermostat.h:118-136. -/
def ThermoTypes.totalEnergy (T : ThermoTypes K) (t : Nat) (ranks : List (ThermoRank K)) : Num K :=
  ranks.foldl (fun e r => e + r.foldl (fun e l => e + T.threadEnergy t l) 0) 0

/-- `numParticleMap[t]` after both reductions, Thermostat.h:118-139. -/
def totalCount (t : Nat) (ranks : List (ThermoRank K)) : Nat :=
  ranks.foldl (fun n r => n + r.foldl (fun n l => n + threadCount t l) 0) 0

/-- A particle of a type that is not registered: `map::at` throws, Thermostat.h:108. -/
def ThermoTypes.unknownType (T : ThermoTypes K) (ranks : List (ThermoRank K)) : Bool :=
  ranks.any fun r => r.any fun l => l.any fun p => p.visited && decide (T.number ≤ p.type)

/-- `calcTemperatureComponent`, Thermostat.h:74-149: the temperatures of the registered types. -/
def ThermoTypes.temperatureComponent (T : ThermoTypes K) (ranks : List (ThermoRank K)) : Outcome (Nat → Num K) :=
  if T.unknownType ranks then .throws
  else .ok fun t => T.totalEnergy t ranks / .fin ((totalCount t ranks : K) * 3)

/-- `calcTemperature`, Thermostat.h:29-55, on one rank: the sum runs over owned and halo particles, `getNumberOfParticles()` counts the owned ones
(AutoPasDecl.h:550). -/
def ThermoTypes.temperature (T : ThermoTypes K) (rank : ThermoRank K) : Num K :=
  (rank.foldl (fun e l => e + (l.filter (·.visited)).foldl (fun e p => e + T.energyMul2 p) 0) 0) /
    .fin (((rank.map fun l => l.countP fun p => fulfillsOwnership ibOwned p.own).sum : K) * 3)

/-- `a < b` for doubles. What is not finite is not smaller (`NaN`; for `inf` the result of the function is not finite either way). -/
def numLess : Num K → Num K → Bool
  | .fin a, .fin b => decide (a < b)
  | _, _ => false

/-- `std::min`, `std::max` -/
def numMin (a b : Num K) : Num K := if numLess b a then b else a
def numMax (a b : Num K) : Num K := if numLess a b then b else a

/-- `std::sqrt` of a double. -/
def numSqrt (sqrt : K → Num K) : Num K → Num K
  | .fin a => sqrt a
  | .nonFinite => .nonFinite

/-- `immediateTargetTemperature`, Thermostat.h:239 and 250-253. -/
def immediateTarget (current target delta : Num K) : Num K :=
  if numLess current target then numMin (current + delta) target else numMax (current - delta) target

/-- `scalingMap`, Thermostat.h:243-255. -/
def scalingOf (sqrt : K → Num K) (target delta : K) (current : Num K) : Num K :=
  numSqrt sqrt (immediateTarget current (.fin target) (.fin |delta|) / current)

/-- `apply`, Thermostat.h:229-271. -/
def ThermoTypes.apply (T : ThermoTypes K) (sqrt : K → Num K) (target delta : K) (ranks : List (ThermoRank K)) : Outcome (List (ThermoRank K)) :=
  (T.temperatureComponent ranks).bind fun cur =>
    .ok (ranks.map fun r => r.map fun l => l.map fun p =>
      if p.visited then { p with v := p.v.scale (scalingOf sqrt target delta (cur p.type)) } else p)

/-- Any number of applications, with nothing in between. -/
def ThermoTypes.applyTimes (T : ThermoTypes K) (sqrt : K → Num K) (target delta : K) : Nat → List (ThermoRank K) → Outcome (List (ThermoRank K))
  | 0, ranks => .ok ranks
  | n + 1, ranks => (T.apply sqrt target delta ranks).bind (T.applyTimes sqrt target delta n)

end
end Verif
