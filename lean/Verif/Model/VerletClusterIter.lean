import Verif.Model.VerletClusterLists
import Verif.Model.Iterator
/-!
Iteration in VerletClusterLists: /repo/src/autopas/containers/verletClusterLists/VerletClusterLists.h. The loops of `getParticleImpl`
(:282-344) and `advanceIteratorIndices` (:1176-1220) are those of LinkedCells (Model/Iterator.lean) with towers in the place of cells; only
the actual particles of a tower are looked at, not the padding. `begin` and `getRegionIterator` always hand over the vectors
`_particlesToAdd` together with the additional vectors of the caller (:420-475); the model's `vecs` are both.
-/
namespace Verif

/-- The iterator returned by `VerletClusterLists::begin`, thread `t` of `numThreads`: VerletClusterLists.h:301-317, :321-325, :1181-1199. -/
def vclIterCfg (g : VCLGrid) (behavior numThreads t : Nat) : IterCfg Particle where
  ful p := fulfillsOwnership behavior p.own
  rel _ := true
  startC := if behavior &&& ibHalo = 0 then g.firstOwnedTower else 0
  endC := if behavior &&& ibHalo = 0 then g.lastOwnedTower else g.tx * g.ty - 1
  thread := iterThread behavior t
  stride := iterStride behavior numThreads

/-- The iterator returned by `VerletClusterLists::getRegionIterator`, thread `t` of `numThreads`: VerletClusterLists.h:293-308, :1184-1199.
The region is clamped to the box plus halo (ContainerIterator.h:252-258); towers are looked up in the region enlarged by `margin`, the
code's `_skinPerTimestep * getStepsSinceLastRebuild()`. -/
def vclRegionCfg (g : VCLGrid) (margin : Rat) (lo hi : V3 Rat) (behavior numThreads t : Nat) : IterCfg Particle :=
  let rMax := V3.minimum hi (g.bMax.addScalar g.il)
  let rMin := V3.maximum lo (g.bMin.addScalar (-g.il))
  let sMin := rMin.addScalar (-margin)
  let sMax := rMax.addScalar margin
  { ful := fun p => inBoxB p.pos rMin rMax && fulfillsOwnership behavior p.own
    rel := fun c => decide (g.tx * g.ty = 1) || boxesOverlap (g.towerBox (g.to2D c)).1 (g.towerBox (g.to2D c)).2 sMin sMax
    startC := g.to1D (g.towerAt sMin)
    endC := g.to1D (g.towerAt sMax)
    thread := iterThread behavior t
    stride := iterStride behavior numThreads }

end Verif
