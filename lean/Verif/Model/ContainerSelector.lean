import Verif.Model.LogicParticles
import Verif.Model.LinkedCellsReferences
import Verif.Model.DirectSum
import Verif.Model.OctreeStorage
import Verif.Model.VerletClusterLists
/-!
# Choosing a container: /repo/src/autopas/tuning/selectors/ContainerSelector.h

The particles stored by containers of all types. The neighbour lists are not modelled here (C24).
-/
namespace Verif
open Octree

/-- `ContainerOption`, /repo/src/autopas/options/ContainerOption.h:23-71. -/
inductive ContainerKind
  | directSum | linkedCells | linkedCellsReferences | varVerletListsAsBuild | verletClusterLists | verletLists | verletListsCells
  | pairwiseVerletLists | octree
deriving DecidableEq, Repr

/-- `ContainerSelectorInfo`, /repo/src/autopas/tuning/selectors/ContainerSelectorInfo.h:20-120. -/
structure SelectorInfo where
  cellSizeFactor : Rat
  skinPerTimestep : Rat
  rebuildFrequency : Nat
  clusterSize : Nat
  loadEstimator : Nat
deriving DecidableEq, Repr

/-- `operator==`, ContainerSelectorInfo.h:53-56; the rebuild frequency is not compared. -/
def SelectorInfo.same (a b : SelectorInfo) : Bool :=
  decide (a.cellSizeFactor = b.cellSizeFactor) && decide (a.skinPerTimestep = b.skinPerTimestep) && decide (a.clusterSize = b.clusterSize) &&
    decide (a.loadEstimator = b.loadEstimator)

/-- Where a container keeps its particles. VerletLists, VerletListsCells, PairwiseVerletLists and VarVerletLists keep them in a LinkedCells container,
/repo/src/autopas/containers/verletListsCellBased/VerletListsLinkedBase.h:47-66. `toAdd` is `_particlesToAdd`. -/
inductive ParticleStore
  | cells (cells : List (List Particle))
  | references (st : LRState)
  | directSum (cells : List (List Particle))
  | octree (st : OTState)
  | clusters (towers toAdd : List (List Particle))

/-- What the selector and its containers share: ContainerSelector.h:92-93, and the number of threads. `grow` is the growth of `std::vector`. -/
structure SelectorCfg where
  bMin : V3 Rat
  bMax : V3 Rat
  cutoff : Rat
  numThreads : Nat
  grow : Nat → Nat

/-- The interaction length of a container, /repo/src/autopas/containers/CellBasedParticleContainer.h:78-92. -/
def SelectorCfg.il (S : SelectorCfg) (i : SelectorInfo) : Rat := S.cutoff + i.skinPerTimestep * i.rebuildFrequency

/-- The parameters of the cell blocks. -/
def SelectorCfg.params (S : SelectorCfg) (i : SelectorInfo) : LHParams :=
  ⟨S.bMin, S.bMax, S.il i, i.cellSizeFactor, i.skinPerTimestep, i.rebuildFrequency, S.numThreads⟩

/-- The parameters of the octree. -/
def SelectorCfg.otCfg (S : SelectorCfg) (i : SelectorInfo) : OTCfg := ⟨⟨S.bMin, S.bMax⟩, S.il i⟩

/-- The constructors, ContainerSelector.h:102-162. -/
def SelectorCfg.construct (S : SelectorCfg) (k : ContainerKind) (i : SelectorInfo) : ParticleStore :=
  match k with
  | .directSum => .directSum (List.replicate 7 [])
  | .linkedCells | .verletLists | .verletListsCells | .pairwiseVerletLists | .varVerletListsAsBuild =>
    .cells (List.replicate (S.params i).block.numCells [])
  | .linkedCellsReferences => .references (LRState.init (S.params i))
  | .octree => .octree OTState.empty
  | .verletClusterLists => .clusters [[]] (List.replicate S.numThreads [])

/-- `addParticle`, /repo/src/autopas/containers/ParticleContainerInterface.h:96-108, with `addParticleImpl` of the container (thread 0). -/
def SelectorCfg.add (S : SelectorCfg) (i : SelectorInfo) (st : ParticleStore) (p : Particle) : Outcome ParticleStore :=
  if inBoxB p.pos S.bMin S.bMax = false then .throws
  else match st with
    | .cells cells => .ok (.cells (lcAdd (S.params i).block cells p))
    | .references r => (r.add (S.params i) S.grow p).bind fun r => .ok (.references r)
    | .directSum cells => .ok (.directSum (dsAdd cells p))
    | .octree t => .ok (.octree (t.add (S.otCfg i) p))
    | .clusters towers toAdd => .ok (.clusters towers (bufAdd toAdd 0 p))

/-- `addHaloParticle`, ParticleContainerInterface.h:127-140, with `addHaloParticleImpl` of the container. -/
def SelectorCfg.addHalo (S : SelectorCfg) (i : SelectorInfo) (st : ParticleStore) (p : Particle) : Outcome ParticleStore :=
  if inBoxB p.pos S.bMin S.bMax then .throws
  else match st with
    | .cells cells => .ok (.cells (lcAdd (S.params i).block cells p))
    | .references r => (r.add (S.params i) S.grow p).bind fun r => .ok (.references r)
    | .directSum cells => .ok (.directSum (dsAddHalo S.bMin S.bMax cells p))
    | .octree t => .ok (.octree (t.addHalo (S.otCfg i) p))
    | .clusters towers toAdd => .ok (.clusters towers (bufAdd toAdd 0 p))

/-- What a loop with `begin(ownedOrHalo)` comes to, in some order (C30, C64, C72 for the iterators): everything stored that is not a dummy.
`none`: dangling pointers. -/
def ParticleStore.particles : ParticleStore → Option (List Particle)
  | .cells cs => some (cs.flatten.filter fun p => decide (p.own ≠ .dummy))
  | .references r => r.view.map fun v => v.flatten.filter fun p => decide (p.own ≠ .dummy)
  | .directSum cs => some (cs.flatten.filter fun p => decide (p.own ≠ .dummy))
  | .octree t => some ((collectAll t.owned ++ collectAll t.halo).filter fun p => decide (p.own ≠ .dummy))
  | .clusters towers toAdd => some ((towers.flatten ++ toAdd.flatten).filter fun p => decide (p.own ≠ .dummy))

/-- The loop that copies the particles, ContainerSelector.h:173-181. -/
def SelectorCfg.copyAll (S : SelectorCfg) (i : SelectorInfo) (st : ParticleStore) : List Particle → Outcome ParticleStore
  | [] => .ok st
  | p :: ps => (if p.own = .owned then S.add i st p else S.addHalo i st p).bind fun st => S.copyAll i st ps

/-- `generateContainer`, ContainerSelector.h:98-185. `sched` is the order in which the iterator comes to the particles. -/
def SelectorCfg.generate (S : SelectorCfg) (k : ContainerKind) (i : SelectorInfo) (sched : List Particle → List Particle)
    (current : Option (ContainerKind × ParticleStore)) : Outcome ParticleStore :=
  match current with
  | none => .ok (S.construct k i)
  | some (_, old) =>
    match old.particles with
    | none => .ub
    | some l => S.copyAll i (S.construct k i) (sched l)

/-- The members `_currentContainer` and `_currentInfo`, ContainerSelector.h:94-95. -/
structure CSelector where
  current : Option (ContainerKind × ParticleStore)
  info : SelectorInfo

/-- `selectContainer`, ContainerSelector.h:205-214. -/
def CSelector.select (S : SelectorCfg) (s : CSelector) (k : ContainerKind) (i : SelectorInfo) (sched : List Particle → List Particle) : Outcome CSelector :=
  if decide (s.current.map Prod.fst = some k) && s.info.same i then .ok s
  else (S.generate k i sched s.current).bind fun st => .ok ⟨some (k, st), i⟩

/-- Any number of switches. -/
def CSelector.run (S : SelectorCfg) (s : CSelector) : List (ContainerKind × SelectorInfo × (List Particle → List Particle)) → Outcome CSelector
  | [] => .ok s
  | a :: as => (s.select S a.1 a.2.1 a.2.2).bind fun s => s.run S as

end Verif
