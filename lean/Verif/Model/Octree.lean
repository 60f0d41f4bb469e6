import Verif.Model.OctreeDirection
import Verif.Model.Iterator
import Verif.Model.LCInteract
import Verif.Spec.Geometry
import Mathlib.Logic.Function.Basic
/-!
The octree container, /repo/src/autopas/containers/octree/: nodes, insertion, neighbour search, traversals.

A node of a tree is named by the list of the octants that lead to it from the root, the last one first: `o :: q` is the son `o` of `q`, `[]` is
the root. Pointers to nodes are such lists; `FATHER` is `List.tail`. Fields that every node inherits from its parent (threshold, interaction
length) are parameters; the box of a node is computed from the box of the root.
-/
namespace Verif.Octree

/-- `_boxMin`, `_boxMax` of a node, OctreeNodeInterface.h:393-398. -/
structure Box where
  lo : V3 Rat
  hi : V3 Rat
deriving DecidableEq

/-- An octree node: OctreeLeafNode.h (its particles) or OctreeInnerNode.h (`_children`, indexed by `vertexToIndex`). -/
inductive OTree (P : Type)
  | leaf (ps : List P)
  | inner (c : Vertex → OTree P)

/-- Pointer to a node. -/
abbrev Path := List Vertex

section
variable {P : Type}

/-- The box of child `i`, OctreeInnerNode.h:42-69. -/
def childBoxNo (b : Box) (i : Nat) : Box :=
  let center : V3 Rat := ⟨(b.lo.x + b.hi.x) * (1 / 2), (b.lo.y + b.hi.y) * (1 / 2), (b.lo.z + b.hi.z) * (1 / 2)⟩
  ⟨⟨if i &&& 4 = 0 then b.lo.x else center.x, if i &&& 2 = 0 then b.lo.y else center.y, if i &&& 1 = 0 then b.lo.z else center.z⟩,
   ⟨if i &&& 4 = 0 then center.x else b.hi.x, if i &&& 2 = 0 then center.y else b.hi.y, if i &&& 1 = 0 then center.z else b.hi.z⟩⟩

/-- The box of the child for an octant. -/
def childBox (b : Box) (o : Vertex) : Box := childBoxNo b (vertexToIndex o)

/-- The box of a node in a tree with box `b`. -/
def boxAt (b : Box) : Path → Box
  | [] => b
  | o :: q => childBox (boxAt b q) o

/-- `anyNewDimSmallerThanMinSize`, OctreeLeafNode.h:65-79. -/
def tooSmall (il : Rat) (b : Box) : Bool :=
  (b.hi.x - b.lo.x) * (1 / 2) < il ∨ (b.hi.y - b.lo.y) * (1 / 2) < il ∨ (b.hi.z - b.lo.z) * (1 / 2) < il

/-- `insert` of inner nodes, OctreeInnerNode.h:97-108 (a particle that is in no child is dropped); `leafInsert` is the `insert` of leaves. A leaf
that returns a new inner node is replaced by it. -/
def insertWith (pos : P → V3 Rat) (leafInsert : Box → List P → P → OTree P) : OTree P → Box → P → OTree P
  | .leaf ps, b, p => leafInsert b ps p
  | .inner c, b, p =>
    match vertices.find? fun o => inBoxB (pos p) (childBox b o).lo (childBox b o).hi with
    | none => .inner c
    | some o => .inner (Function.update c o (insertWith pos leafInsert (c o) (childBox b o) p))

/-- `insert` of leaves, OctreeLeafNode.h:62-108; `fuel` bounds the number of nested splits (irrelevant if large enough, see
`leafInsert_fuel`). The check of the ownership state (:84-90) never fails because leaves have the state `ownedOrHalo`
(/repo/src/autopas/cells/ParticleCell.h:189). -/
def leafInsert (pos : P → V3 Rat) (thr : Nat) (il : Rat) : Nat → Box → List P → P → OTree P
  | 0, _, ps, p => .leaf (ps ++ [p])
  | fuel + 1, b, ps, p =>
    if ps.length < thr ∨ tooSmall il b = true then .leaf (ps ++ [p])
    else (p :: ps).foldl (fun t q => insertWith pos (leafInsert pos thr il fuel) t b q) (.inner fun _ => .leaf [])

/-- A bound for the number of nested splits: every split halves the width, and no new leaf is narrower than the interaction length. -/
def splitFuel (il : Rat) (b : Box) : Nat := ⌊(b.hi.x - b.lo.x) / il⌋.toNat

/-- `OctreeNodeWrapper::addParticle`, OctreeNodeWrapper.h:87-91, on a tree with box `b`. -/
def insert (pos : P → V3 Rat) (thr : Nat) (il : Rat) (b : Box) (t : OTree P) (p : P) : OTree P :=
  insertWith pos (leafInsert pos thr il (splitFuel il b)) t b p

/-- `appendAllLeaves`, OctreeInnerNode.h:214-218, OctreeLeafNode.h:178-180: pointers and contents. -/
def leavesFrom : OTree P → Path → List (Path × List P)
  | .leaf ps, q => [(q, ps)]
  | .inner c, q => vertices.flatMap fun o => leavesFrom (c o) (o :: q)

/-- All leaves of a tree. -/
def leaves (t : OTree P) : List (Path × List P) := leavesFrom t []

/-- `collectAllParticles`, OctreeInnerNode.h:129-134, OctreeLeafNode.h:122-129. -/
def collectAll : OTree P → List P
  | .leaf ps => ps
  | .inner c => vertices.flatMap fun o => collectAll (c o)

/-- The node behind a pointer. -/
def nodeAt (t : OTree P) : Path → Option (OTree P)
  | [] => some t
  | o :: q =>
    match nodeAt t q with
    | some (.inner c) => some (c o)
    | _ => none

/-- `GRAY(Q)`, OctreeNodeInterface.h:423-426: `Q` has children. -/
def gray (t : OTree P) (q : Path) : Bool :=
  match nodeAt t q with
  | some (.inner _) => true
  | _ => false

/-- The last step of the three neighbour searches, OctreeNodeInterface.h:482-487, 511-516, 540-545: `Q` or its son `r`; `none` is `nullptr`. -/
def followSon (t : OTree P) (r : Vertex) (Q : Option Path) : Option Path :=
  match Q with
  | none => none
  | some q => if gray t q then some (r :: q) else some q

/-- `GTEQ_FACE_NEIGHBOR`, OctreeNodeInterface.h:465-488. `SONTYPE` of `o :: q` is `o` (:448-463). For the root `Q = FATHER(P)` is `nullptr`. -/
def gteqFace (t : OTree P) (I : Face) : Path → Option Path
  | [] => none
  | o :: q => followSon t (REFLECT (.face I) o) (if ADJ (.face I) o then gteqFace t I q else some q)

/-- `GTEQ_EDGE_NEIGHBOR`, OctreeNodeInterface.h:490-517. -/
def gteqEdge (t : OTree P) (I : Edge) : Path → Option Path
  | [] => none
  | o :: q => followSon t (REFLECT (.edge I) o)
      (if ADJ (.edge I) o then gteqEdge t I q
       else match COMMON_FACE (.edge I) o with
         | some common => gteqFace t common q
         | none => some q)

/-- `GTEQ_VERTEX_NEIGHBOR`, OctreeNodeInterface.h:519-546. -/
def gteqVertex (t : OTree P) (I : Vertex) : Path → Option Path
  | [] => none
  | o :: q => followSon t (REFLECT (.vertex I) o)
      (if ADJ (.vertex I) o then gteqVertex t I q
       else match COMMON_EDGE I o with
         | some commonEdge => gteqEdge t commonEdge q
         | none => match COMMON_FACE (.vertex I) o with
           | some commonFace => gteqFace t commonFace q
           | none => some q)

/-- `getLeavesFromDirections`, OctreeInnerNode.h:191-206, OctreeLeafNode.h:169-172. -/
def leavesFromDirections (directions : List Vertex) : OTree P → Path → List Path
  | .leaf _, q => [q]
  | .inner c, q => directions.flatMap fun o => leavesFromDirections directions (c o) (o :: q)

/-- `getNeighborLeaves(direction)`, OctreeNodeInterface.h:316-321, called for the neighbour `q`. -/
def neighborLeavesIn (t : OTree P) (direction : Any) (q : Option Path) : List Path :=
  match q with
  | none => []
  | some q =>
    match nodeAt t q with
    | none => []
    | some n => leavesFromDirections (allowedDirections (oppositeDirection direction)) n q

/-- `getNeighborLeaves()`, OctreeNodeInterface.h:327-358: the elements of the `std::set`, each once. (A `std::set` of pointers is traversed in
the order of the addresses, so the order is not specified; see `otOps`.) -/
def neighborLeaves (t : OTree P) (p : Path) : List Path :=
  ((faces.flatMap fun f => neighborLeavesIn t (.face f) (gteqFace t f p)) ++
   (edges.flatMap fun e => neighborLeavesIn t (.edge e) (gteqEdge t e p)) ++
   (vertices.flatMap fun v => neighborLeavesIn t (.vertex v) (gteqVertex t v p))).dedup

/-- `getEnclosedVolumeWith(...) > 0`, OctreeNodeInterface.h:196-213. The product of positive numbers is positive (exact arithmetic). -/
def enclosesVolume (a b : Box) : Bool :=
  (0 < min a.hi.x b.hi.x - max a.lo.x b.lo.x) ∧ (0 < min a.hi.y b.hi.y - max a.lo.y b.lo.y) ∧ (0 < min a.hi.z b.hi.z - max a.lo.z b.lo.z)

/-- `getLeavesInRange`, OctreeInnerNode.h:220-232, OctreeLeafNode.h:182-189; `b` is the box of the node, `r` the range. -/
def leavesInRange (r : Box) : OTree P → Box → Path → List Path
  | .leaf _, b, q => if enclosesVolume b r then [q] else []
  | .inner c, b, q => vertices.flatMap fun o => if enclosesVolume (childBox b o) r then leavesInRange r (c o) (childBox b o) (o :: q) else []

/-- `leaf->getBoxMin() - _interactionLength`, `leaf->getBoxMax() + _interactionLength`, OTC01Traversal.h:96-97, OTC18Traversal.h:111-112. -/
def Box.grow (b : Box) (il : Rat) : Box := ⟨⟨b.lo.x - il, b.lo.y - il, b.lo.z - il⟩, ⟨b.hi.x + il, b.hi.y + il, b.hi.z + il⟩⟩

/-- Position of a leaf in the list of all leaves: its ID (`assignIDs`, OTC18Traversal.h:65-69, 76-78; halo leaves come after the owned leaves). -/
def leafNo (ls : List (Path × List P)) (q : Path) : Nat := (ls.map Prod.fst).idxOf q

/-- The cell functor calls of `traverseParticles`: OTC01Traversal.h:73-104 (`c18 = false`), OTC18Traversal.h:91-121 (`c18 = true`; pairs only if the
first ID is smaller). Cells are numbered by their IDs. `arrange` is the order in which a `std::set` of leaves is traversed. The sorting
direction is the default, zero (CellFunctor.h:52-53). -/
def otOps (c18 : Bool) (arrange : List Path → List Path) (il : Rat) (owned halo : OTree P) (b hb : Box) : List CellOp :=
  (leaves owned).flatMap fun l =>
    let id : Nat := leafNo (leaves owned) l.1
    let pairWith (other : Nat) : List CellOp := if c18 = true ∧ ¬ id < other then [] else [.pair id other ⟨0, 0, 0⟩]
    .self id ::
    (((arrange (neighborLeaves owned l.1)).flatMap fun q => pairWith (leafNo (leaves owned) q)) ++
     ((arrange (leavesInRange ((boxAt b l.1).grow il) halo hb [])).flatMap fun q =>
        pairWith ((leaves owned).length + leafNo (leaves halo) q)))

/-- The leaves as cells. Their ownership state is the default `ownedOrHalo` (/repo/src/autopas/cells/ParticleCell.h:189). -/
def otPCells (owned halo : OTree P) : List (PCell P) := (leaves owned ++ leaves halo).map fun l => ⟨l.2, true⟩

/-- `computeInteractions`, Octree.h:142-150. -/
def otCalls (f : CellFunctorCfg P) (c18 : Bool) (arrange : List Path → List Path) (il : Rat) (owned halo : OTree P) (b hb : Box) :
    List (PairCall P) :=
  f.run (otPCells owned halo) [[otOps c18 arrange il owned halo b hb]]

end
end Verif.Octree
