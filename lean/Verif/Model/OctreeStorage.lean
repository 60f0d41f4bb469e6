import Verif.Model.Octree
import Verif.Model.Outcome
import Verif.Model.DirectSum
/-!
Storage of particles in the octree container, /repo/src/autopas/containers/octree/Octree.h, OctreeNodeWrapper.h.
-/
namespace Verif.Octree

section
variable {P : Type}

/-- Changes the vector of one leaf; the octants that lead to it are given from the root on. No effect if there is no such leaf. -/
def modifyAt (g : List P → List P) : List Vertex → OTree P → OTree P
  | [], .leaf ps => .leaf (g ps)
  | o :: r, .inner c => .inner (Function.update c o (modifyAt g r (c o)))
  | _, t => t

/-- The user changes particles through references; every particle keeps its place in memory. -/
def OTree.map {Q : Type} (g : P → Q) : OTree P → OTree Q
  | .leaf ps => .leaf (ps.map g)
  | .inner c => .inner fun o => (c o).map g

/-- The particles of a leaf. -/
def leafAt (t : OTree P) (q : Path) : Option (List P) :=
  match nodeAt t q with
  | some (.leaf ps) => some ps
  | _ => none

/-- `deleteParticle(cellIndex, particleIndex)`, Octree.h:331-339, on the tree: swap-delete in a leaf. -/
def deleteAt (t : OTree P) (q : Path) (i : Nat) : OTree P := modifyAt (fun ps => swapDelete ps i) q.reverse t

/-- The way down in `deleteParticle(particle)`, OctreeInnerNode.h:110-124: the octants from the root to the leaf that contains the position;
`none`: the exception "Particle not found in this node!". -/
def findLeaf (x : V3 Rat) : OTree P → Box → Option (List Vertex)
  | .leaf _, _ => some []
  | .inner c, b =>
    match vertices.find? fun o => inBoxB x (childBox b o).lo (childBox b o).hi with
    | none => none
    | some o => (findLeaf x (c o) (childBox b o)).map (o :: ·)

/-- `deleteParticle(particle)`, OctreeInnerNode.h:110-124, OctreeLeafNode.h:110-117. The reference points to the particle number `i` of leaf `q`.
The leaf found by the current position may be another one: `particle = back(); pop_back()` reads and shortens that leaf, and
writes into leaf `q`. `back` of an empty vector is undefined. -/
def deleteRef (pos : P → V3 Rat) (t : OTree P) (b : Box) (q : Path) (i : Nat) : Outcome (OTree P) :=
  match (leafAt t q).bind (·[i]?) with
  | none => .ub
  | some p =>
    match findLeaf (pos p) t b with
    | none => .throws
    | some r =>
      match (leafAt t r.reverse).bind List.getLast? with
      | none => .ub
      | some last => .ok (modifyAt List.dropLast r (modifyAt (fun ps => ps.set i last) q.reverse t))

end

/-- The container: box, interaction length. -/
structure OTCfg where
  box : Box
  il : Rat

/-- `treeSplitThreshold`, Octree.h:80. -/
def treeSplitThreshold : Nat := 16

/-- `haloBoxMin`, `haloBoxMax`, Octree.h:89-90. -/
def OTCfg.haloBox (c : OTCfg) : Box := c.box.grow c.il

/-- The two trees and `_enclosedParticleCount` of both wrappers (OctreeNodeWrapper.h:350). -/
structure OTState where
  owned : OTree Particle
  halo : OTree Particle
  nOwned : Nat
  nHalo : Nat

/-- The container after construction, Octree.h:74-98. -/
def OTState.empty : OTState := ⟨.leaf [], .leaf [], 0, 0⟩

/-- `addParticleImpl`, Octree.h:172; OctreeNodeWrapper.h:87-94. -/
def OTState.add (c : OTCfg) (s : OTState) (p : Particle) : OTState :=
  { s with owned := insert Particle.pos treeSplitThreshold c.il c.box s.owned p, nOwned := s.nOwned + 1 }

/-- `addHaloParticleImpl`, Octree.h:177-179; OctreeNodeWrapper.h:87-94. -/
def OTState.addHalo (c : OTCfg) (s : OTState) (p : Particle) : OTState :=
  { s with halo := insert Particle.pos treeSplitThreshold c.il c.haloBox s.halo p, nHalo := s.nHalo + 1 }

/-- `deleteHaloParticles`, Octree.h:405; `clear`, OctreeNodeWrapper.h:159-163; `clearChildren`, OctreeInnerNode.h:148-157, OctreeLeafNode.h:143-145:
the tree becomes one empty leaf. -/
def OTState.deleteHalo (s : OTState) : OTState := { s with halo := .leaf [], nHalo := 0 }

/-- `updateContainer(false)`, Octree.h:104-137: the particles handed back, and the new state. -/
def OTState.update (c : OTCfg) (s : OTState) : List Particle × OTState :=
  let live := (collectAll s.owned).filter fun p => p.own ≠ .dummy
  (live.filter fun p => !inBoxB p.pos c.box.lo c.box.hi,
   (live.filter fun p => inBoxB p.pos c.box.lo c.box.hi).foldl (OTState.add c) OTState.empty)

/-- `size()`, Octree.h:393-395, OctreeNodeWrapper.h:134-137. -/
def OTState.size (s : OTState) : Nat := s.nOwned + s.nHalo

/-- What a user can do with the container. -/
inductive OTAction
  /-- `addParticle` -/
  | add (p : Particle)
  /-- `addHaloParticle` -/
  | addHalo (p : Particle)
  /-- changes particles through iterators or functors -/
  | change (g : Particle → Particle)
  /-- `updateContainer(false)` -/
  | update
  /-- `deleteHaloParticles` -/
  | deleteHalo
  /-- deletes the particle to which an iterator over the owned (halo) particles points -/
  | deleteOwnedAt (q : Path) (i : Nat)
  | deleteHaloAt (q : Path) (i : Nat)

/-- One action: the particles handed back, and the new state. (The checks of `addParticle` and `addHaloParticle`,
/repo/src/autopas/containers/ParticleContainerInterface.h:96-140, are conditions on the histories in the theorems.) -/
def OTState.step (c : OTCfg) (s : OTState) : OTAction → List Particle × OTState
  | .add p => ([], s.add c p)
  | .addHalo p => ([], s.addHalo c p)
  | .change g => ([], { s with owned := s.owned.map g, halo := s.halo.map g })
  | .update => s.update c
  | .deleteHalo => ([], s.deleteHalo)
  | .deleteOwnedAt q i => ([], { s with owned := deleteAt s.owned q i })
  | .deleteHaloAt q i => ([], { s with halo := deleteAt s.halo q i })

/-- A history: everything that was handed back, and the final state. -/
def OTState.run (c : OTCfg) (s : OTState) : List OTAction → List (List Particle) × OTState
  | [] => ([], s)
  | a :: as =>
    let r := s.step c a
    let r' := OTState.run c r.2 as
    (r.1 :: r'.1, r'.2)

end Verif.Octree
