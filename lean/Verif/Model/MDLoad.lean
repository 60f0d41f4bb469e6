import Verif.Model.MDRun
/-!
# How the particles of the configuration come to the ranks of md-flexible

/repo/examples/md-flexible/src/Simulation.cpp, `loadParticles`. All ranks at once, as in `MDDomain`: `cfg r` is `_configuration.particles` of the
rank with domain id `r`. Sending and receiving particles is taken as lossless here: the serialization theorems (`Model/Serialization.lean`) show that serialization is, and every send has its receive.
-/
namespace Verif

/-- The rank with the given number, RegularGridDecomposition.cpp:112-121 and DomainTools.h:70-82. -/
def RGD.rankAt (D : RGD) (i : Nat) : V3 Nat := convertIndexToId i D.dec

/-- `getNumberOfSubdomains`. -/
def RGD.numRanks (D : RGD) : Nat := D.dec.x * D.dec.y * D.dec.z

/-- `isInsideLocalDomain`, RegularGridDecomposition.cpp:151-153 and DomainTools.cpp:14-24. -/
def RGD.isInside (D : RGD) (r : V3 Nat) (p : V3 Rat) : Bool := inBoxB p (D.lo r) (D.hi r)

/-- The lambda of the first call, Simulation.cpp:701-708: the result and the particle afterwards. -/
def loadPredicate (D : RGD) (r : V3 Nat) (p : Particle) : Bool × Particle :=
  if D.isInside r p.pos then (true, { p with own := .dummy }) else (false, p)

/-- `AutoPas::addParticlesIf` with `LogicHandler::addParticle`, AutoPasImpl.h:202-222 and LogicHandler.h:303-325: what is added to the container of the
rank, whose box is the local box (Simulation.cpp:141-142), and the collection afterwards. The threads may add in any order; here it is the order of the
collection. -/
def addParticlesIf (D : RGD) (r : V3 Nat) (pred : Particle → Bool × Particle) (ps : List Particle) : Outcome (List Particle × List Particle) :=
  let chosen := (ps.filter fun p => (pred p).1).map fun p => (pred p).2
  if chosen.all fun p => inBoxB p.pos (D.lo r) (D.hi r) then .ok (chosen.map fun p => { p with own := .owned }, ps.map fun p => (pred p).2)
  else .throws

/-- The first part, Simulation.cpp:701-713: what is added locally and what remains. -/
def loadOwn (D : RGD) (cfg : V3 Nat → List Particle) (r : V3 Nat) : Outcome (List Particle × List Particle) :=
  (addParticlesIf D r (loadPredicate D r) (cfg r)).bind fun x => .ok (x.1, x.2.filter fun p => !decide (p.own = .dummy))

/-- The second part, Simulation.cpp:715-744: everything received from the other ranks, in the order of their numbers, and what is added of it. -/
def loadOthers (D : RGD) (remaining : V3 Nat → List Particle) (rank : Nat) : Outcome (List Particle) :=
  let received := (List.range D.numRanks).flatMap fun sender => if sender = rank then [] else remaining (D.rankAt sender)
  (addParticlesIf D (D.rankAt rank) (fun p => (D.isInside (D.rankAt rank) p.pos, p)) received).bind fun x => .ok x.1

/-- The sum of numbers of particles as computed by `AutoPas_MPI_Reduce` on `unsigned long`s, Simulation.cpp:753-762. -/
def reduceSum (D : RGD) (f : V3 Nat → Nat) : Nat := ((List.range D.numRanks).map fun i => f (D.rankAt i)).sum % 2 ^ 64

/-- `Simulation::loadParticles` on all ranks, Simulation.cpp:695-783: the owned particles of every rank, or an exception on rank 0. -/
def loadParticles (D : RGD) (cfg : V3 Nat → List Particle) : Outcome (V3 Nat → List Particle) :=
  (allRanks D.dec (loadOwn D cfg) ([], [])).bind fun first =>
    (allRanks D.dec (fun r => loadOthers D (fun s => (first s).2) (convertIdToIndex r D.dec)) []).bind fun second =>
      let added := fun r => (first r).1 ++ second r
      if reduceSum D (fun r => (added r).length) ≠ reduceSum D (fun r => (cfg r).length) then .throws else .ok added

/-- `initializeObjects`, MDFlexConfig.cpp:614-636: the objects are generated on rank 0 only. -/
def configOfObjects (D : RGD) (generated : List Particle) (r : V3 Nat) : List Particle :=
  if convertIdToIndex r D.dec = 0 then generated else []

end Verif
