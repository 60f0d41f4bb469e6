import Verif.Model.VerletListsCells
import Verif.Model.NeighborListsBuffer
/-!
The VerletClusterLists container: /repo/src/autopas/containers/verletClusterLists/ (ClusterTowerBlock2D.h, ClusterTower.h, Cluster.h,
VerletClusterListsRebuilder.h, VerletClusterLists.h, traversals/VCL*.h). `double` is `Rat`. A particle is a value of an abstract type with
a position and an ownership.
-/
namespace Verif

/-! ### The grid of towers -/

/-- `ClusterTowerBlock2D` without its towers, ClusterTowerBlock2D.h:384-442. `sideX`, `sideY` are `_towerSideLength`, `tx`, `ty` are
`_towersPerDim`. -/
structure VCLGrid where
  bMin : V3 Rat
  bMax : V3 Rat
  il : Rat
  sideX : Rat
  sideY : Rat
  tx : Nat
  ty : Nat

/-- `_haloBoxMin`, ClusterTowerBlock2D.h:41. -/
def VCLGrid.haloMin (g : VCLGrid) : V3 Rat := ⟨g.bMin.x - g.il, g.bMin.y - g.il, g.bMin.z - g.il⟩

/-- `_haloBoxMax`, ClusterTowerBlock2D.h:42. -/
def VCLGrid.haloMax (g : VCLGrid) : V3 Rat := ⟨g.bMax.x + g.il, g.bMax.y + g.il, g.bMax.z + g.il⟩

/-- `numTowersPerInteractionLength2D`, ClusterTowerBlock2D.h:95-96, in x. -/
def VCLGrid.perX (g : VCLGrid) : Nat := ⌈g.il / g.sideX⌉.toNat

/-- `numTowersPerInteractionLength2D`, ClusterTowerBlock2D.h:95-96, in y. -/
def VCLGrid.perY (g : VCLGrid) : Nat := ⌈g.il / g.sideY⌉.toNat

/-- `_numTowersPerInteractionLength`, ClusterTowerBlock2D.h:105-106: the larger one. If they differ, there only is a warning (:98-104). -/
def VCLGrid.per (g : VCLGrid) : Nat := max g.perX g.perY

/-- `estimateOptimalGridSideLength`, ClusterTowerBlock2D.h:140-166, followed by `resize`, ClusterTowerBlock2D.h:89-114. `cbrt` stands for
`std::cbrt`. -/
def vclEstimate (cbrt : Rat → Rat) (bMin bMax : V3 Rat) (il : Rat) (clusterSize numParticles : Nat) : VCLGrid :=
  let boxX := bMax.x - bMin.x
  let boxY := bMax.y - bMin.y
  if numParticles = 0 then ⟨bMin, bMax, il, boxX, boxY, 1, 1⟩
  else
    let volume := boxX * boxY * (bMax.z - bMin.z)
    let density := (numParticles : Rat) / volume
    let optimal := cbrt ((clusterSize : Rat) / density)
    let ownedX := ⌈boxX / optimal⌉
    let ownedY := ⌈boxY / optimal⌉
    let sideX := boxX / ownedX
    let sideY := boxY / ownedY
    ⟨bMin, bMax, il, sideX, sideY, (ownedX + ⌈il / sideX⌉ * 2).toNat, (ownedY + ⌈il / sideY⌉ * 2).toNat⟩

/-- `towerIndex2DTo1D`, ClusterTowerBlock2D.h:280. -/
def VCLGrid.to1D (g : VCLGrid) (t : Nat × Nat) : Nat := t.1 + t.2 * g.tx

/-- `towerIndex1DTo2D`, ClusterTowerBlock2D.h:288-294. -/
def VCLGrid.to2D (g : VCLGrid) (i : Nat) : Nat × Nat := if g.tx = 0 then (0, 0) else (i % g.tx, i / g.tx)

/-- One dimension of `getTowerIndex2DAtPosition`, ClusterTowerBlock2D.h:226-240 (`_towerSideLengthReciprocal` is `1 / side`). -/
def vclDimIndex (bMin haloMin haloMax side : Rat) (per towers : Nat) (x : Rat) : Nat :=
  if x ≥ haloMax then towers - 1
  else if x < haloMin then 0
  else min (⌊(x - bMin) * (1 / side)⌋ + per).toNat (towers - 1)

/-- `getTowerIndex2DAtPosition`, ClusterTowerBlock2D.h:218-243. -/
def VCLGrid.towerAt (g : VCLGrid) (p : V3 Rat) : Nat × Nat :=
  if g.tx * g.ty = 1 then (0, 0)
  else (vclDimIndex g.bMin.x g.haloMin.x g.haloMax.x g.sideX g.per g.tx p.x,
    vclDimIndex g.bMin.y g.haloMin.y g.haloMax.y g.sideY g.per g.ty p.y)

/-- `getTowerBoundingBox`, ClusterTowerBlock2D.h:190-210. (`_towersPerDim[0] == 0` only before the first rebuild.) -/
def VCLGrid.towerBox (g : VCLGrid) (t : Nat × Nat) : V3 Rat × V3 Rat :=
  let lo : V3 Rat := ⟨g.bMin.x - g.sideX * g.per + g.sideX * t.1, g.bMin.y - g.sideY * g.per + g.sideY * t.2, g.haloMin.z⟩
  (lo, ⟨lo.x + g.sideX, lo.y + g.sideY, g.haloMax.z⟩)

/-- `_firstOwnedTowerIndex`, ClusterTowerBlock2D.h:111. -/
def VCLGrid.firstOwnedTower (g : VCLGrid) : Nat := g.to1D (g.per, g.per)

/-- `_lastOwnedTowerIndex`, ClusterTowerBlock2D.h:112-113. (The unsigned subtractions do not wrap for a grid of `vclEstimate` if the two
numbers of towers per interaction length agree.) -/
def VCLGrid.lastOwnedTower (g : VCLGrid) : Nat := g.to1D (g.tx - g.per, g.ty - g.per)

section
variable {P : Type}

/-! ### Sorting particles into towers -/

/-- `sortParticlesIntoTowers`, VerletClusterListsRebuilder.h:216-231, for one particle. -/
def vclSortIn (g : VCLGrid) (pos : P → V3 Rat) (towers : List (List P)) (p : P) : List (List P) :=
  if inBoxB (pos p) g.haloMin g.haloMax then towers.modify (g.to1D (g.towerAt (pos p))) (· ++ [p]) else towers

/-- `rebuildTowersAndClusters`, VerletClusterListsRebuilder.h:66-124, without the clusters: `old` are the towers before, `toAdd` the particles
that were added since, `g` the new grid. Dummies are deleted (:69-71); particles of surplus towers (:100-102) and out of the bounds of
their tower (:109-111, ClusterTower.h:226-241) are sorted in anew together with `toAdd`. `std::partition` may change the order inside of a
tower and the parallel loop of `sortParticlesIntoTowers` may add in any order; the theorems speak about all orders. -/
def vclRebuild (g : VCLGrid) (pos : P → V3 Rat) (own : P → Ownership) (old : List (List P)) (toAdd : List P) : List (List P) :=
  let old := old.map fun t => t.filter fun p => decide (own p ≠ .dummy)
  let inside : Nat → P → Bool := fun i p => inBoxB (pos p) (g.towerBox (g.to2D i)).1 (g.towerBox (g.to2D i)).2
  let surplus := old.drop (g.tx * g.ty)
  let kept := (List.range (g.tx * g.ty)).map fun i => (old.getD i []).filter (inside i)
  let outOfBounds := (List.range (g.tx * g.ty)).map fun i => (old.getD i []).filter fun p => !inside i p
  (toAdd :: (surplus ++ outOfBounds)).flatten.foldl (vclSortIn g pos) kept

/-! ### Clusters -/

/-- The number of padding particles of a tower, ClusterTower.h:93-94. -/
def vclPadding (clusterSize : Nat) (tower : List P) : Nat :=
  if tower.length % clusterSize = 0 then 0 else clusterSize - tower.length % clusterSize

/-- The storage of a tower after `generateClusters`, ClusterTower.h:91-101: the particles sorted by z (`tower`), then the padding
(`none`), which are dummies. -/
def vclStorage (clusterSize : Nat) (tower : List P) : List (Option P) :=
  tower.map some ++ List.replicate (vclPadding clusterSize tower) none

/-- `numClusters`, ClusterTower.h:84-89, 104. -/
def vclNumClusters (clusterSize : Nat) (tower : List P) : Nat := (vclStorage clusterSize tower).length / clusterSize

/-- Cluster number `k`: `_clusterSize` particles starting at `_particles[_clusterSize * index]`, ClusterTower.h:119, Cluster.h:52. -/
def vclSlots (clusterSize : Nat) (tower : List P) (k : Nat) : List (Option P) :=
  ((vclStorage clusterSize tower).drop (clusterSize * k)).take clusterSize

/-- `isAnyOfClusterOwned`, ClusterTower.h:109-116. -/
def vclAnyOwned (own : P → Ownership) (slots : List (Option P)) : Bool :=
  slots.any fun s => match s with
    | none => false
    | some p => decide (own p = .owned)

/-- The loop ClusterTower.h:118-133: first owned cluster and first tail halo cluster, if found. -/
def vclScan (anyOwned : Nat → Bool) (numClusters : Nat) : Option Nat × Option Nat :=
  (List.range numClusters).foldl (fun s index =>
    let contains := s.2.isNone && anyOwned index
    let first := if s.1.isNone && contains then some index else s.1
    let tail := if s.2.isNone && first.isSome && !contains then some index else s.2
    (first, tail)) (none, none)

/-- `_firstOwnedCluster`, ClusterTower.h:125-137. -/
def vclFirstOwned (clusterSize : Nat) (own : P → Ownership) (tower : List P) : Nat :=
  (vclScan (fun k => vclAnyOwned own (vclSlots clusterSize tower k)) (vclNumClusters clusterSize tower)).1.getD (vclNumClusters clusterSize tower)

/-- `_firstTailHaloCluster`, ClusterTower.h:129-140. -/
def vclFirstTail (clusterSize : Nat) (own : P → Ownership) (tower : List P) : Nat :=
  (vclScan (fun k => vclAnyOwned own (vclSlots clusterSize tower k)) (vclNumClusters clusterSize tower)).2.getD (vclNumClusters clusterSize tower)

/-- `isHaloCluster`, VerletClusterListsRebuilder.h:375-377, VCLC06Traversal.h:144-145. -/
def vclIsHalo (clusterSize : Nat) (own : P → Ownership) (tower : List P) (k : Nat) : Bool :=
  decide (k < vclFirstOwned clusterSize own tower) || decide (k ≥ vclFirstTail clusterSize own tower)

/-- The clusters a rebuild or a traversal goes through: all with Newton 3, otherwise those from the first owned to the first tail halo
cluster. VerletClusterListsRebuilder.h:132-133, :379-380, VCLC06Traversal.h:139-143, VCLSlicedTraversal.h:38-42. -/
def vclRange (clusterSize : Nat) (own : P → Ownership) (newton3 : Bool) (tower : List P) : List Nat :=
  if newton3 then List.range (vclNumClusters clusterSize tower)
  else List.range' (vclFirstOwned clusterSize own tower) (vclFirstTail clusterSize own tower - vclFirstOwned clusterSize own tower)

/-! ### Neighbour lists -/

/-- Positions of the particles of a cluster while the lists are built: the padding is at the place of the last actual particle,
`setDummyParticlesToLastActualParticle`, ClusterTower.h:167-175, VerletClusterListsRebuilder.h:168-176. -/
def vclPositions (clusterSize : Nat) (pos : P → V3 Rat) (tower : List P) (k : Nat) : List (V3 Rat) :=
  (vclSlots clusterSize tower k).map fun s => match s with
    | some p => pos p
    | none => (tower.getLast?.map pos).getD ⟨0, 0, 0⟩

/-- `Cluster::getBoundingBox`, Cluster.h:135-149: z from the first and the last particle. -/
def vclBoundingBox (ps : List (V3 Rat)) : V3 Rat × V3 Rat :=
  let first := ps.headD ⟨0, 0, 0⟩
  let last := ps.getLastD ⟨0, 0, 0⟩
  (⟨(ps.map V3.x).foldl min first.x, (ps.map V3.y).foldl min first.y, first.z⟩,
   ⟨(ps.map V3.x).foldl max last.x, (ps.map V3.y).foldl max last.y, last.z⟩)

/-- `boxDistanceSquared`, /repo/src/autopas/utils/ArrayMath.h:663-673. -/
def boxDistanceSquared (aMin aMax bMin bMax : V3 Rat) : Rat :=
  (max 0 (aMin.x - bMax.x)) ^ 2 + (max 0 (aMin.y - bMax.y)) ^ 2 + (max 0 (aMin.z - bMax.z)) ^ 2 +
  ((max 0 (bMin.x - aMax.x)) ^ 2 + (max 0 (bMin.y - aMax.y)) ^ 2 + (max 0 (bMin.z - aMax.z)) ^ 2)

/-- `Cluster::empty` while the lists are built (the padding are copies of the last actual particle then), Cluster.h:58-62. -/
def vclEmpty (clusterSize : Nat) (own : P → Ownership) (tower : List P) (k : Nat) : Bool :=
  (vclSlots clusterSize tower k).all fun s => match s with
    | some p => decide (own p = .dummy)
    | none => (tower.getLast?.map fun p => decide (own p = .dummy)).getD true

/-- `get1DInteractionCellIndexForTower`, VerletClusterListsRebuilder.h:314-323. -/
def VCLGrid.interactionCell (g : VCLGrid) (t : Nat × Nat) : Nat :=
  t.1 / g.per + ⌈(g.tx : Rat) / g.per⌉.toNat * (t.2 / g.per)

/-- `isForwardNeighbor`, VerletClusterListsRebuilder.h:338-353. -/
def VCLGrid.isForward (g : VCLGrid) (t t' : Nat × Nat) : Bool :=
  if g.interactionCell t' > g.interactionCell t then true
  else if g.interactionCell t' < g.interactionCell t then false
  else decide (g.to1D t' ≥ g.to1D t)

/-- The test of the distance of two towers, VerletClusterListsRebuilder.h:284-298. -/
def VCLGrid.towersClose (g : VCLGrid) (t t' : Nat × Nat) : Bool :=
  let dy : Rat := ((absDiff t.2 t'.2 - 1 : Nat) : Rat) * g.sideY
  let dx : Rat := ((absDiff t.1 t'.1 - 1 : Nat) : Rat) * g.sideX
  decide (dx * dx + dy * dy ≤ g.il * g.il)

/-- The neighbour towers of a tower in the order of the loops, `updateNeighborLists` and `iterateNeighborTowers`,
VerletClusterListsRebuilder.h:236-255, 278-305. -/
def VCLGrid.neighbourTowers (g : VCLGrid) (newton3 : Bool) (t : Nat × Nat) : List (Nat × Nat) :=
  (List.range' (t.2 - g.per) (min (t.2 + g.per) (g.ty - 1) + 1 - (t.2 - g.per))).flatMap fun y =>
    ((List.range' (t.1 - g.per) (min (t.1 + g.per) (g.tx - 1) + 1 - (t.1 - g.per))).filter fun x =>
      !(newton3 && !g.isForward t (x, y)) && g.towersClose t (x, y)).map fun x => (x, y)

/-- A cluster: its tower and its number in the tower. -/
abbrev ClusterId := (Nat × Nat) × Nat

/-- The container after a rebuild: the grid, the cluster size, and for every tower (by 1D index) its particles in the order of the storage,
i.e. sorted by z; positions and ownerships at that time, and whether the lists are built for Newton 3. -/
structure VCL (P : Type) where
  g : VCLGrid
  clusterSize : Nat
  towers : List (List P)
  pos : P → V3 Rat
  own : P → Ownership
  newton3 : Bool

/-- `getTowerByIndex2D`, ClusterTowerBlock2D.h:271. -/
def VCL.tower (s : VCL P) (t : Nat × Nat) : List P := s.towers.getD (s.g.to1D t) []

/-- The particles of a cluster, padding included. -/
def VCL.slots (s : VCL P) (k : ClusterId) : List (Option P) := vclSlots s.clusterSize (s.tower k.1) k.2

/-- Whether a cluster is a halo cluster. -/
def VCL.isHalo (s : VCL P) (k : ClusterId) : Bool := vclIsHalo s.clusterSize s.own (s.tower k.1) k.2

/-- The bounding box of a cluster while the lists are built. -/
def VCL.box (s : VCL P) (k : ClusterId) : V3 Rat × V3 Rat := vclBoundingBox (vclPositions s.clusterSize s.pos (s.tower k.1) k.2)

/-- `calculateNeighborsBetweenTowers`, VerletClusterListsRebuilder.h:365-408: what is added to the list of one cluster `k` of tower A on
account of tower B (`t'`). -/
def VCL.between (s : VCL P) (k : ClusterId) (t' : Nat × Nat) : List ClusterId :=
  if vclEmpty s.clusterSize s.own (s.tower k.1) k.2 then []
  else
    let num := vclNumClusters s.clusterSize (s.tower t')
    let start := if k.1 = t' ∧ s.newton3 = true then k.2 + 1 else 0
    ((List.range' start (num - start)).map fun b => (t', b)).filter fun k' =>
      decide (k' ≠ k) && !(s.isHalo k && s.isHalo k') && !vclEmpty s.clusterSize s.own (s.tower t') k'.2 &&
        decide (boxDistanceSquared (s.box k).1 (s.box k).2 (s.box k').1 (s.box k').2 ≤ s.g.il * s.g.il)

/-- The neighbour list of a cluster after `rebuildNeighborListsAndFillClusters`, VerletClusterListsRebuilder.h:152-162. Lists start empty: a
new list is cleared when it is handed out (C62); the lists of owned clusters are cleared (:168-176). -/
def VCL.neighbours (s : VCL P) (k : ClusterId) : List ClusterId :=
  (s.g.neighbourTowers s.newton3 k.1).flatMap (s.between k)

/-! ### Traversals -/

/-- Functor calls in which a padding particle takes part are dropped: it is a dummy (ClusterTower.h:152-161), and functors leave dummies
alone. -/
def dropPadding (c : PairCall (Option P)) : Option (PairCall P) :=
  match c.p, c.q with
  | some p, some q => some ⟨p, q, c.newton3⟩
  | _, _ => none

/-- `processCluster`, traversals/VCLClusterFunctor.h:38-89. AoS and SoA make the same calls (in AoS layout written out as loops). If the list
is empty, reading its first entry (:44) decides nothing. -/
def VCL.processCluster (s : VCL P) (k : ClusterId) : List (PairCall P) :=
  ((if s.isHalo k then [] else soaSingle s.newton3 (s.slots k)) ++
    (s.neighbours k).flatMap fun k' => soaPair s.newton3 (s.slots k) (s.slots k')).filterMap dropPadding

/-- The clusters of a tower that a traversal processes. -/
def VCL.clustersOf (s : VCL P) (t : Nat × Nat) : List ClusterId :=
  (vclRange s.clusterSize s.own s.newton3 (s.tower t)).map fun a => (t, a)

/-- `getTowersPerDimension`, VerletClusterLists.h, as used by C06: cells of colour, traversals/VCLC06Traversal.h:84-102. -/
def vclC06Dims (g : VCLGrid) : V3 Nat := ⟨⌈(g.tx : Rat) / g.per⌉.toNat, ⌈(g.ty : Rat) / g.per⌉.toNat, 1⟩

/-- `processColorCell`, traversals/VCLC06Traversal.h:116-150: the towers of a cell of colour. -/
def vclC06Towers (g : VCLGrid) (c : V3 Nat) : List (Nat × Nat) :=
  (List.range g.per).flatMap fun yInner => (List.range g.per).filterMap fun xInner =>
    let x := c.x * g.per + xInner
    let y := c.y * g.per + yInner
    if x ≥ g.tx ∨ y ≥ g.ty then none else some (x, y)

/-- A range of clusters of a thread, `ClusterRange`, VerletClusterLists.h. -/
structure ClusterRange where
  startTower : Nat
  startIndex : Nat
  num : Nat
deriving DecidableEq

/-- `fillClusterRanges`, VerletClusterLists.h:1095-1135: state of the loop. -/
structure RangesState where
  ranges : List ClusterRange
  thread : Nat
  toAdd : Nat
  total : Nat
  initialized : Bool

/-- Body of the loop, VerletClusterLists.h:1106-1135, for cluster `c` of tower `t` whose neighbour list has `pairs` entries. -/
def rangesStep (perThread numThreads : Nat) (r : RangesState) (c : (Nat × Nat) × Nat) : RangesState :=
  let ranges := if r.initialized then r.ranges else r.ranges.set r.thread ⟨c.1.1, c.1.2, 0⟩
  let toAdd := r.toAdd + 1
  let total := r.total + c.2
  if total ≥ perThread * (r.thread + 1) then
    let ranges := ranges.modify r.thread fun x => { x with num := x.num + toAdd }
    if r.thread + 1 ≥ numThreads then ⟨ranges, r.thread, 0, total, true⟩ else ⟨ranges, r.thread + 1, 0, total, false⟩
  else ⟨ranges, r.thread, toAdd, total, true⟩

/-- `fillClusterRanges`, VerletClusterLists.h:1085-1148. `clusters`: the owned clusters of all towers in order (tower, index) with the length
of their lists; `old` is `_clusterThreadPartition` before (resized to `numThreads`). -/
def fillClusterRanges (perThread numThreads : Nat) (old : List ClusterRange) (clusters : List ((Nat × Nat) × Nat)) : List ClusterRange :=
  let r := clusters.foldl (rangesStep perThread numThreads) ⟨vectorResize old numThreads ⟨0, 0, 0⟩, 0, 0, 0, false⟩
  let ranges := if r.initialized then r.ranges else r.ranges.set r.thread ⟨0, 0, 0⟩
  let ranges := if r.toAdd ≠ 0 then ranges.modify r.thread fun x => { x with num := x.num + r.toAdd } else ranges
  (List.range ranges.length).map fun k => if r.thread < k then ⟨0, 0, 0⟩ else ranges.getD k ⟨0, 0, 0⟩

/-- The clusters (tower, index) that one thread processes, traversals/VCLC01BalancedTraversal.h:64-80. `first`, `tail`: first owned and
first tail halo cluster of a tower. The second component tells whether the check at :81 passes. -/
def c01ThreadClusters (first tail : Nat → Nat) (numTowers : Nat) (r : ClusterRange) : List (Nat × Nat) × Bool :=
  let visited := (List.range' r.startTower (numTowers - r.startTower)).foldl (fun (acc : List (Nat × Nat)) tower =>
    let start := if acc.length = 0 then r.startIndex else first tower
    acc ++ ((List.range' start (tail tower - start)).take (r.num - acc.length)).map fun k => (tower, k)) []
  (visited, decide (visited.length = r.num))

/-- The traversals. `c01Balanced ranges`: `_clusterThreadPartition`; `sliced` stands for `vcl_sliced` and `vcl_sliced_balanced`. -/
inductive VCLTraversal
  | clusterIteration
  | c01Balanced (ranges : List ClusterRange)
  | c06
  | sliced (thick : List Nat)
  | slicedC02

/-- The sliced traversals get the numbers of towers and their size from `getTraversalSelectorInfo`, VerletClusterLists.h:389-399, where the
grid is estimated anew: `info` is that grid. -/
def vclSelectorDims (info : VCLGrid) : V3 Nat := ⟨info.tx, info.ty, 1⟩

/-- See `vclSelectorDims`. -/
def vclSelectorLength (info : VCLGrid) : V3 Rat := ⟨info.sideX, info.sideY, info.haloMax.z - info.haloMin.z⟩

/-- The clusters that are processed: phases separated by barriers, in each phase packages that may run concurrently.
traversals/VCLClusterIterationTraversal.h:58-66 with VerletClusterLists.h:1036-1051, VCLC01BalancedTraversal.h:58-88, VCLC06Traversal.h:84-150,
VCLSlicedTraversal.h:33-45, VCLSlicedBalancedTraversal.h:33-45, VCLSlicedC02Traversal.h. -/
def VCL.packages (s : VCL P) (info : VCLGrid) : VCLTraversal → List (List (List ClusterId))
  | .clusterIteration => [(List.range s.g.tx).flatMap fun x => (List.range s.g.ty).map fun y => s.clustersOf (x, y)]
  | .c01Balanced ranges => [ranges.map fun r =>
      (c01ThreadClusters (fun i => vclFirstOwned s.clusterSize s.own (s.towers.getD i []))
        (fun i => vclFirstTail s.clusterSize s.own (s.towers.getD i [])) s.towers.length r).1.map fun c => (s.g.to2D c.1, c.2)]
  | .c06 => (colorTraversal (vclC06Dims s.g) ⟨3, 2, 1⟩ ⟨0, 0, 0⟩).map fun colour => colour.map fun c =>
      (vclC06Towers s.g c).flatMap s.clustersOf
  | .sliced thick => (VLCTraversal.bases (.sliced thick) (vclSelectorDims info) (vclSelectorLength info) s.g.il).map fun phase =>
      phase.map fun slice => slice.flatMap fun b => s.clustersOf (b.x, b.y)
  | .slicedC02 => (VLCTraversal.bases .slicedC02 (vclSelectorDims info) (vclSelectorLength info) s.g.il).map fun phase =>
      phase.map fun slice => slice.flatMap fun b => s.clustersOf (b.x, b.y)

/-- The owned clusters with the lengths of their lists, in the order of the loops of `fillClusterRanges`, VerletClusterLists.h:1100-1117. -/
def VCL.ownedClusters (s : VCL P) : List ((Nat × Nat) × Nat) :=
  ((List.range s.towers.length).flatMap fun i =>
    (List.range' (vclFirstOwned s.clusterSize s.own (s.towers.getD i [])) (vclFirstTail s.clusterSize s.own (s.towers.getD i []) -
      vclFirstOwned s.clusterSize s.own (s.towers.getD i []))).map fun k => (i, k)).map fun c =>
    (c, (s.neighbours (s.g.to2D c.1, c.2)).length)

/-- Functor calls of `computeInteractions`, VerletClusterLists.h:143-166. -/
def VCL.calls (s : VCL P) (info : VCLGrid) (t : VCLTraversal) : List (PairCall P) :=
  (s.packages info t).flatten.flatten.flatMap s.processCluster

end
end Verif
