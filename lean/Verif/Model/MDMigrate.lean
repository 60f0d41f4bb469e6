import Verif.Model.MDDomain
/-!
# Migration of particles between the ranks of md-flexible

/repo/examples/md-flexible/src/domainDecomposition/RegularGridDecomposition.cpp. All ranks at once, as in `MDDomain`: `em r` is the vector
`emigrants` of rank `r`.
-/
namespace Verif

/-- The two places where floating point matters here: the sum `position ± length` is rounded (`rnd`; the length itself is taken as exact), and
`inside d` is `std::nextafter(_globalBoxMax[d], _globalBoxMin[d])`, RegularGridDecomposition.cpp:575. -/
structure Wrap where
  rnd : Rat → Rat
  inside : Axis → Rat

/-- `setR` with one coordinate replaced. -/
def Particle.place (p : Particle) (d : Axis) (c : Rat) : Particle := { p with pos := p.pos.put d c }

/-- `leftNeighborParticles` of `categorizeParticlesIntoLeftAndRightNeighbor`, RegularGridDecomposition.cpp:563-578. -/
def RGD.migLeft (D : RGD) (w : Wrap) (d : Axis) (em : V3 Nat → List Particle) (r : V3 Nat) : List Particle :=
  ((em r).filter fun p => decide (p.pos.at d < (D.lo r).at d)).map fun p =>
    if D.atMin d r then p.place d (min (w.inside d) (w.rnd (p.pos.at d + D.length d))) else p

/-- `rightNeighborParticles` (`else if`), RegularGridDecomposition.cpp:580-590. -/
def RGD.migRight (D : RGD) (w : Wrap) (d : Axis) (em : V3 Nat → List Particle) (r : V3 Nat) : List Particle :=
  ((em r).filter fun p => !decide (p.pos.at d < (D.lo r).at d) && decide (p.pos.at d ≥ (D.hi r).at d)).map fun p =>
    if D.atMax d r then p.place d (max (D.gMin.at d) (w.rnd (p.pos.at d - D.length d))) else p

/-- `uncategorizedParticles`, RegularGridDecomposition.cpp:591-593. -/
def RGD.migStay (D : RGD) (d : Axis) (em : V3 Nat → List Particle) (r : V3 Nat) : List Particle :=
  (em r).filter fun p => !decide (p.pos.at d < (D.lo r).at d) && !decide (p.pos.at d ≥ (D.hi r).at d)

/-- The particles handed to AutoPas so far and the vector `emigrants`, of all ranks. -/
structure Migration where
  added : V3 Nat → List Particle
  em : V3 Nat → List Particle

/-- One round of the loop over the dimensions, RegularGridDecomposition.cpp:244-283, without the ALL load balancer (one send step). The order
in which the OpenMP threads handle the received particles is not modelled: the results are only used up to order. -/
def RGD.migrateStep (D : RGD) (w : Wrap) (m : Migration) (d : Axis) : Migration :=
  let received := D.exchange d (D.migLeft w d m.em) (D.migRight w d m.em)
  { added := fun r => if D.skip d r then m.added r else m.added r ++ (received r).filter fun p => inBoxB p.pos (D.lo r) (D.hi r)
    em := fun r => if D.skip d r then m.em r else D.migStay d m.em r ++ (received r).filter fun p => !inBoxB p.pos (D.lo r) (D.hi r) }

/-- The rounds of `exchangeMigratingParticles`, RegularGridDecomposition.cpp:239-284. -/
def RGD.migrate (D : RGD) (w : Wrap) (em : V3 Nat → List Particle) : Migration :=
  [Axis.x, Axis.y, Axis.z].foldl (D.migrateStep w) { added := fun _ => [], em := em }

/-- The closed system check, RegularGridDecomposition.cpp:286-291. -/
def RGD.closed (D : RGD) : Bool :=
  [Axis.x, Axis.y, Axis.z].all fun d => decide (D.boundary.at d = .periodic ∨ D.boundary.at d = .reflective)

/-- `exchangeMigratingParticles` of one rank, RegularGridDecomposition.cpp:239-302: the particles added to its container. Emigrants left over in an
open system are dropped when `emigrants` goes out of scope (Simulation.cpp:230). -/
def RGD.exchangeMigrating (D : RGD) (w : Wrap) (em : V3 Nat → List Particle) (r : V3 Nat) : Outcome (List Particle) :=
  let m := D.migrate w em
  if D.closed && !(m.em r).isEmpty then .throws else .ok (m.added r)

end Verif
