import Verif.Model.ForEach
import Verif.Model.VerletClusterIter
/-!
`forEach`, `reduce`, `forEachInRegion` and `reduceInRegion` of VerletClusterLists:
/repo/src/autopas/containers/verletClusterLists/VerletClusterLists.h:457-741. `towers` are the storages of the towers, padding included (the
loops are those of FullParticleCell, ClusterTower has none of its own), `toAdd` the vectors `_particlesToAdd`, one for each thread.
-/
namespace Verif

/-- `cellCanContainOwnedParticles`, ClusterTowerBlock2D.h:367-382. The subtraction is one of `size_t`. -/
def vclCanContainOwned (g : VCLGrid) (i : Nat) : Bool :=
  !(decide (i < g.firstOwnedTower) || decide (g.lastOwnedTower < i)) &&
  !(decide ((g.to2D i).1 < g.per) || decide ((g.tx + 2 ^ 64 - g.per) % 2 ^ 64 ≤ (g.to2D i).1) ||
    decide ((g.to2D i).2 < g.per) || decide ((g.ty + 2 ^ 64 - g.per) % 2 ^ 64 ≤ (g.to2D i).2))

/-- `ignoreCellForIteration`, /repo/src/autopas/containers/CellBorderAndFlagManager.h:49-60; `cellCanContainHaloParticles` is always true,
ClusterTowerBlock2D.h:362-365. -/
def vclIgnoresTower (g : VCLGrid) (i behavior : Nat) : Bool :=
  if behavior &&& ibHalo ≠ 0 then false
  else if behavior &&& ibOwned ≠ 0 ∧ vclCanContainOwned g i = true then false
  else if behavior &&& ibDummy ≠ 0 then false
  else true

/-- `forEach`, VerletClusterLists.h:457-470. -/
def vclForEach (behavior : Nat) (f : Particle → Particle) (towers toAdd : List (List Particle)) :
    Outcome (List (List Particle) × List (List Particle)) :=
  (forEachCells (some behavior) none f (List.range towers.length) towers).bind fun towers' =>
    (forEachCells (some behavior) none f (List.range toAdd.length) toAdd).bind fun toAdd' => .ok (towers', toAdd')

/-- `reduce`, VerletClusterLists.h:507-519. -/
def vclReduce {A : Type} (behavior : Nat) (h : A → Particle → A) (towers toAdd : List (List Particle)) (a : A) : Outcome A :=
  (reduceCells (some behavior) none h towers (List.range towers.length) a).bind fun a' =>
    reduceCells (some behavior) none h toAdd (List.range toAdd.length) a'

/-- `reduce` of a `const` container, VerletClusterLists.h:526-552; `forEach` of a `const` container (:477-502) goes through the same particles.
`valid`: the state of the container is not `invalid`. -/
def vclReduceConst {A : Type} (valid : Bool) (behavior : Nat) (h : A → Particle → A) (towers toAdd : List (List Particle)) (a : A) : Outcome A :=
  if valid = true ∧ toAdd.all List.isEmpty = false then .throws
  else (reduceCells (some behavior) none h towers (List.range towers.length) a).bind fun a' =>
    if valid then .ok a' else reduceCells (some behavior) none h toAdd (List.range toAdd.length) a'

/-- The towers looked at for a region, VerletClusterLists.h:616-626; `skin` is `getVerletSkin()`. -/
def vclRegionTowers (g : VCLGrid) (skin : Rat) (behavior : Nat) (lo hi : V3 Rat) (n : Nat) : List Nat :=
  (List.range n).filter fun i => !vclIgnoresTower g i behavior &&
    boxesOverlap ((g.towerBox (g.to2D i)).1.addScalar (-(skin * (1 / 2)))) ((g.towerBox (g.to2D i)).2.addScalar (skin * (1 / 2))) lo hi

/-- `forEachInRegion`, VerletClusterLists.h:612-638. -/
def vclForEachInRegion (g : VCLGrid) (skin : Rat) (behavior : Nat) (lo hi : V3 Rat) (f : Particle → Particle)
    (towers toAdd : List (List Particle)) : Outcome (List (List Particle) × List (List Particle)) :=
  (forEachCells (some behavior) (some (lo, hi)) f (vclRegionTowers g skin behavior lo hi towers.length) towers).bind fun towers' =>
    (forEachCells (some behavior) (some (lo, hi)) f (List.range toAdd.length) toAdd).bind fun toAdd' => .ok (towers', toAdd')

/-- `reduceInRegion`, VerletClusterLists.h:689-715. -/
def vclReduceInRegion {A : Type} (g : VCLGrid) (skin : Rat) (behavior : Nat) (lo hi : V3 Rat) (h : A → Particle → A)
    (towers toAdd : List (List Particle)) (a : A) : Outcome A :=
  (reduceCells (some behavior) (some (lo, hi)) h towers (vclRegionTowers g skin behavior lo hi towers.length) a).bind fun a' =>
    reduceCells (some behavior) (some (lo, hi)) h toAdd (List.range toAdd.length) a'

/-- The storage of a tower after a rebuild, ClusterTower.h:87-101, 152-161: the particles (`tower`, sorted by z) and the padding. The padding
are copies of the first particle of the last cluster, marked as dummies, with the largest number of `size_t` as ID, and spread along z. -/
def vclPadded (clusterSize : Nat) (dummyStartX dummyDistZ : Rat) (tower : List Particle) : List Particle :=
  tower ++ (List.range (vclPadding clusterSize tower)).reverse.map fun (k : Nat) =>
    ⟨2 ^ 64 - 1, ⟨dummyStartX, 0, dummyDistZ * ((k : Rat) + 1)⟩, .dummy⟩

end Verif
