import Verif.Model.OctreeStorage
/-!
Iteration over the octree container: `getParticle` and `deleteParticle(cellIndex, particleIndex)` of
/repo/src/autopas/containers/octree/Octree.h, used by /repo/src/autopas/iterators/ContainerIterator.h.

The vector `currentCellIndex` is a list of digits, its `back()` first: the numbers of the children on the way up to the root, then the number
of the tree. A pointer `currentCellPtr` always points to the node that the vector names; the model keeps only the vector.
-/
namespace Verif.Octree

section
variable {P : Type}

/-- The child number `i` of a node is that of this octant (`vertexToIndex`, OctreeDirection.h:117-128). -/
def octant (i : Nat) : Vertex := vertices.getD i .LDB

/-- What the iterator of one thread knows. -/
structure OTIterCfg (P : Type) where
  /-- `particleFulfillsIteratorRequirements`, ContainerIterator.h:56-78. -/
  ful : P → Bool
  /-- `iteratorBehavior & owned`, `iteratorBehavior & halo` -/
  wantsOwned : Bool
  wantsHalo : Bool
  /-- region including the safety margin, Octree.h:247-253; `none`: not a region iterator -/
  region : Option (V3 Rat × V3 Rat)
  /-- the boxes of the two trees -/
  box : Box
  haloBox : Box
  /-- thread number and number of threads; 0 and 1 for `forceSequential` -/
  thread : Nat
  stride : Nat

/-- `cellIsRelevant`, Octree.h:509-516. `size()` of a node is the number of particles in its leaves
(OctreeInnerNode.h:162-168, OctreeLeafNode.h:147). -/
def OTIterCfg.relevant (cfg : OTIterCfg P) (t : OTree P) (b : Box) : Bool :=
  match cfg.region with
  | none => decide (0 < (collectAll t).length)
  | some r => boxesOverlap b.lo b.hi r.1 r.2

/-- The node named by an index vector, with its box; `none`: there is no such node, using it is undefined. -/
def nodeOf (cfg : OTIterCfg P) (owned halo : OTree P) : List Nat → Option (OTree P × Box)
  | [] => none
  | [d] => if d = 0 then some (owned, cfg.box) else if d = 1 then some (halo, cfg.haloBox) else none
  | d :: q =>
    match nodeOf cfg owned halo q with
    | some (.inner c, b) => if d < 8 then some (c (octant d), childBoxNo b d) else none
    | _ => none

/-- `while (currentCellIndex.back() == 7) …`, Octree.h:530-538. -/
def climb : List Nat → List Nat
  | [] => []
  | d :: q => if d = 7 then climb q else d :: q

/-- Octree.h:528-559: the next node that is not below the current one; `none`: `return {nullptr, max}`. -/
def nextNode (cfg : OTIterCfg P) (ds : List Nat) : Option (List Nat) :=
  match climb ds with
  | [] => none
  | [d] => if 1 < d + 1 then none else if cfg.wantsHalo then some [d + 1] else none
  | d :: q => some ((d + 1) :: q)

/-- Octree.h:565-585: down to the first relevant leaf. If no child is relevant, child 8 of 8 is read. -/
def descend (cfg : OTIterCfg P) : OTree P → Box → List Nat → Outcome (List Nat)
  | .leaf _, _, ds => .ok ds
  | .inner c, b, ds =>
    match (List.range 8).find? fun (i : Nat) => cfg.relevant (c (octant i)) (childBoxNo b i) with
    | none => .ub
    | some i => descend cfg (c (octant i)) (childBoxNo b i) (i :: ds)

/-- The loops of `advanceIteratorIndices`, Octree.h:518-598, after the first `++particleIndex`. `rounds` bounds the number of rounds. -/
def advanceTree (cfg : OTIterCfg P) (owned halo : OTree P) : Nat → List Nat → Nat → Bool → Outcome (Option (List Nat × Nat))
  | 0, _, _, _ => .diverges
  | rounds + 1, ds, i, forceJump =>
    match nodeOf cfg owned halo ds with
    | none => .ub
    | some (t, _) =>
      if (collectAll t).length ≤ i ∨ forceJump = true then
        match nextNode cfg ds with
        | none => .ok none
        | some ds' =>
          match nodeOf cfg owned halo ds' with
          | none => .ub
          | some (t', b') =>
            if cfg.relevant t' b' = false then advanceTree cfg owned halo rounds ds' i true
            else (descend cfg t' b' ds').bind fun ds'' => advanceTree cfg owned halo rounds ds'' 0 false
      else
        match t with
        | .inner _ => .throws
        | .leaf ps =>
          match ps[i]? with
          | none => .ub
          | some p => if cfg.ful p then .ok (some (ds, i)) else advanceTree cfg owned halo rounds ds (i + 1) false

/-- The loop of `getLeafCellByIndex`, Octree.h:307-313; `none`: a child that does not exist is read. -/
def parseIndex : OTree P → Nat → List Nat → Option (List Nat × List P)
  | .leaf ps, _, ds => some (ds, ps)
  | .inner c, k, ds => if k % 10 < 8 then parseIndex (c (octant (k % 10))) (k / 10) (k % 10 :: ds) else none

/-- `getLeafCellByIndex`, Octree.h:300-315. -/
def getLeafCellByIndex (owned halo : OTree P) (cellIndex : Nat) : Option (List Nat × List P) :=
  if cellIndex % 10 = 0 then parseIndex owned (cellIndex / 10) [0]
  else if cellIndex % 10 = 1 then parseIndex halo (cellIndex / 10) [1]
  else none

/-- Octree.h:280-285: `size_t` arithmetic. -/
def encodeIndex (ds : List Nat) : Nat := ds.foldl (fun k d => (k * 10 + d) % idxMod) 0

/-- Enough rounds for `advanceTree` (`advanceTree_spec`): every round goes on to a later leaf or to the next particle of a leaf. -/
def enoughRounds (owned halo : OTree P) : Nat :=
  (leaves owned).length + (leaves halo).length + (collectAll owned).length + (collectAll halo).length + 2

/-- `getParticleImpl`, Octree.h:225-289. `ok none` is `{nullptr, 0, 0}`. -/
def getTreeParticle (cfg : OTIterCfg P) (owned halo : OTree P) (cellIndex particleIndex : Nat) : Outcome (Option (Nat × Nat × P)) :=
  if 0 < cfg.thread then .ok none
  else
    let cellIndex := if cellIndex = 0 ∧ cfg.wantsOwned = false then 1 else cellIndex
    if cellIndex < 10 ∧ 1 < cellIndex then .ok none
    else
      match getLeafCellByIndex owned halo cellIndex with
      | none => .ub
      | some (ds, ps) =>
        let here : Bool := match ps[particleIndex]? with
          | none => false
          | some p => cfg.ful p
        (if here then .ok (some (ds, particleIndex))
         else advanceTree cfg owned halo (enoughRounds owned halo) ds (particleIndex + 1) false).bind fun r =>
          match r with
          | none => .ok none
          | some (ds, i) =>
            match nodeOf cfg owned halo ds with
            | some (.leaf ps, _) =>
              match ps[i]? with
              | none => .ub
              | some p => .ok (some (encodeIndex ds, i, p))
            | _ => .ub

/-- The members of `ContainerIterator` together with the storage it points into, as `IterState`. -/
structure OTIter (P : Type) where
  owned : OTree P
  halo : OTree P
  vecs : List (List P)
  inVecs : Bool
  ci : Nat
  pi : Nat
  cur : Option P

/-- The second half of `fetchParticleAtCurrentIndex`, ContainerIterator.h:342-360. It does not use the container. -/
def OTIter.fetchVecs (cfg : OTIterCfg P) (s : OTIter P) : OTIter P :=
  match findInVecs ⟨cfg.ful, fun _ => true, 0, 0, cfg.thread, cfg.stride⟩ s.vecs s.ci s.pi with
  | some (v, i, p) => { s with ci := v, pi := i, cur := some p }
  | none => { s with ci := idxMod - 1, pi := idxMod - 1, cur := none }

/-- `fetchParticleAtCurrentIndex`, ContainerIterator.h:320-361. -/
def OTIter.fetch (cfg : OTIterCfg P) (s : OTIter P) : Outcome (OTIter P) :=
  if s.inVecs then .ok (s.fetchVecs cfg)
  else
    (getTreeParticle cfg s.owned s.halo s.ci s.pi).bind fun r =>
      match r with
      | some (c, i, p) => .ok { s with ci := c, pi := i, cur := some p }
      | none =>
        if s.vecs = [] then .ok { s with ci := 0, pi := 0, cur := none }
        else .ok (({ s with ci := cfg.thread, pi := 0, inVecs := true } : OTIter P).fetchVecs cfg)

/-- The constructor, ContainerIterator.h:240-261. -/
def OTIter.begin (cfg : OTIterCfg P) (owned halo : OTree P) (vecs : List (List P)) : Outcome (OTIter P) :=
  OTIter.fetch cfg ⟨owned, halo, vecs, false, 0, 0, none⟩

/-- `operator++`, ContainerIterator.h:272-277. -/
def OTIter.next (cfg : OTIterCfg P) (s : OTIter P) : Outcome (OTIter P) := OTIter.fetch cfg { s with pi := (s.pi + 1) % idxMod }

/-- Changes the leaf with the given index in the trees. -/
def OTIter.modifyLeaf (s : OTIter P) (cellIndex : Nat) (g : List P → List P) : Outcome (OTIter P) :=
  match getLeafCellByIndex s.owned s.halo cellIndex with
  | none => .ub
  | some (ds, _) =>
    let way : List Vertex := ds.dropLast.reverse.map octant
    if ds.getLastD 0 = 0 then .ok { s with owned := modifyAt g way s.owned } else .ok { s with halo := modifyAt g way s.halo }

/-- Assignment through the iterator, `*iter = p`. -/
def OTIter.write (s : OTIter P) (p : P) : Outcome (OTIter P) :=
  if s.inVecs then .ok { s with vecs := s.vecs.set s.ci ((s.vecs.getD s.ci []).set s.pi p), cur := some p }
  else (s.modifyLeaf s.ci fun ps => ps.set s.pi p).bind fun s' => .ok { s' with cur := some p }

/-- `deleteCurrentParticle`, ContainerIterator.h:368-395, with `deleteParticle(cellIndex, particleIndex)`, Octree.h:331-339. For the vectors see
`deleteCurrent`. -/
def OTIter.deleteCurrent (cfg : OTIterCfg P) (s : OTIter P) : Outcome (OTIter P) :=
  let r : Outcome (OTIter P) :=
    if s.inVecs then
      let vec := s.vecs.getD s.ci []
      let vec' := swapDelete vec s.pi
      let s1 := { s with vecs := s.vecs.set s.ci vec' }
      let now : Option P := (vec'[s.pi]?).or vec.getLast?
      if vec' = [] ∨ (now.map cfg.ful).getD false = false then s1.next cfg else .ok s1
    else
      (s.modifyLeaf s.ci fun ps => swapDelete ps s.pi).bind fun s1 =>
        match getLeafCellByIndex s1.owned s1.halo s.ci with
        | none => .ub
        | some (_, cell') =>
          if ¬ s.pi < cell'.length then s1.next cfg
          else if ((cell'[s.pi]?).map cfg.ful).getD false = false then s1.next cfg
          else .ok s1
  r.bind fun s' => .ok { s' with pi := (s'.pi + idxMod - 1) % idxMod }

/-- The state after the loop body has overwritten (`some`) or deleted (`none`) the current particle. -/
def OTIter.afterBody (cfg : OTIterCfg P) (s : OTIter P) : Option P → Outcome (OTIter P)
  | some p => s.write p
  | none => s.deleteCurrent cfg

/-- A user loop `for (auto iter = begin(...); iter.isValid(); ++iter) body(*iter)`, as `iterLoop`. -/
def OTIter.loop (cfg : OTIterCfg P) (body : List P → P → Option P) : Nat → List P → OTIter P → Outcome (List (Visit P) × OTIter P)
  | 0, _, _ => .diverges
  | rounds + 1, seen, s =>
    match s.cur with
    | none => .ok ([], s)
    | some p =>
      let r := body seen p
      (s.afterBody cfg r).bind fun s1 => (s1.next cfg).bind fun s2 =>
        (OTIter.loop cfg body rounds (seen ++ [p]) s2).bind fun q => .ok (⟨s.inVecs, s.ci, p, r⟩ :: q.1, q.2)

end

/-- The iterator returned by `Octree::begin`, thread `t` of `numThreads`, Octree.h:344-357. -/
def otIterCfg (c : OTCfg) (behavior numThreads t : Nat) : OTIterCfg Particle where
  ful p := fulfillsOwnership behavior p.own
  wantsOwned := decide (behavior &&& ibOwned ≠ 0)
  wantsHalo := decide (behavior &&& ibHalo ≠ 0)
  region := none
  box := c.box
  haloBox := c.haloBox
  thread := iterThread behavior t
  stride := iterStride behavior numThreads

/-- The iterator returned by `Octree::getRegionIterator`, thread `t` of `numThreads`, Octree.h:362-375. The region is clamped to the box plus
halo (ContainerIterator.h:252-258); leaves are looked up in the region enlarged by `margin`, the code's
`_skinPerTimestep * getStepsSinceLastRebuild()` (Octree.h:247-253). -/
def otRegionCfg (c : OTCfg) (margin : Rat) (lo hi : V3 Rat) (behavior numThreads t : Nat) : OTIterCfg Particle :=
  let rMax := V3.minimum hi (c.box.hi.addScalar c.il)
  let rMin := V3.maximum lo (c.box.lo.addScalar (-c.il))
  { otIterCfg c behavior numThreads t with
    ful := fun p => inBoxB p.pos rMin rMax && fulfillsOwnership behavior p.own
    region := some (rMin.addScalar (-margin), rMax.addScalar margin) }

end Verif.Octree
