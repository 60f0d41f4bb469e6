import Verif.Model.CellBlock3D
import Verif.Model.Ownership
/-!
Model of /repo/src/autopas/iterators/ContainerIterator.h and of the `getParticle` functions of
/repo/src/autopas/containers/linkedCells/LinkedCells.h it calls.

A container is the list of its cells (`_cells`), a cell the list of its particles. Pointers into a cell are pairs of
indices. The iterator of one thread is modelled; the threads of a parallel region run this code with different
`thread`. Indices are `size_t`: `--` on 0 and `++` on the maximum wrap around, which the model keeps (`idxMod`).
-/
namespace Verif

/-- `size_t` arithmetic is modulo this number. -/
def idxMod : Nat := 2 ^ 64

/-- `*p = vec.back(); vec.pop_back();` for the element at index `i`,
/repo/src/autopas/containers/linkedCells/LinkedCells.h:301-302, ContainerIterator.h:374-375. Without effect if there is no
element `i`. -/
def swapDelete {P : Type} (l : List P) (i : Nat) : List P :=
  match l.getLast? with
  | none => l
  | some b => if i < l.length then (l.set i b).dropLast else l

/-- What an iterator knows about its container and its thread. -/
structure IterCfg (P : Type) where
  /-- `particleFulfillsIteratorRequirements`, ContainerIterator.h:56-78, for the behaviour and region of this iterator. -/
  ful : P → Bool
  /-- `cellIsRelevant` in `advanceIteratorIndices`, LinkedCells.h:495-510. -/
  rel : Nat → Bool
  /-- `startCellIndex` in `getParticleImpl`, LinkedCells.h:243-257. -/
  startC : Nat
  /-- `endCellIndex`, same place. -/
  endC : Nat
  /-- `autopas_get_thread_num()`, or 0 for `forceSequential`. -/
  thread : Nat
  /-- `autopas_get_num_threads()`, or 1 for `forceSequential`. -/
  stride : Nat

section
variable {P : Type}

/-- The loops of `advanceIteratorIndices` after the first `++particleIndex`, LinkedCells.h:512-535. `none` is the pair of
maximal indices. A stride of 0 (no threads) would loop forever; the model answers `none` and the theorems assume at least
one thread. -/
def advanceLoop (cfg : IterCfg P) (cells : List (List P)) (c i : Nat) : Option (Nat × Nat) :=
  if cfg.rel c = false ∨ (cells.getD c []).length ≤ i then
    if _h : cfg.endC < c + cfg.stride ∨ cfg.stride = 0 then none
    else advanceLoop cfg cells (c + cfg.stride) 0
  else
    match (cells.getD c [])[i]? with
    | none => none
    | some p => if cfg.ful p then some (c, i) else advanceLoop cfg cells c (i + 1)
termination_by (cfg.endC + 1 - c, (cells.getD c []).length - i)
decreasing_by
  · apply Prod.Lex.left; omega
  · rename_i h; apply Prod.Lex.right; omega

/-- `advanceIteratorIndices`, LinkedCells.h:486-535. -/
def advanceIteratorIndices (cfg : IterCfg P) (cells : List (List P)) (c i : Nat) : Option (Nat × Nat) :=
  advanceLoop cfg cells c (i + 1)

/-- `getParticleImpl`, LinkedCells.h:227-285. `none` is `{nullptr, 0, 0}`. -/
def getParticleImpl (cfg : IterCfg P) (cells : List (List P)) (cellIndex particleIndex : Nat) : Option (Nat × Nat × P) :=
  let cellIndex := if cellIndex = 0 ∧ particleIndex = 0 then cfg.startC + cfg.thread else cellIndex
  if cells.length ≤ cellIndex then none
  else
    let here : Bool := match (cells.getD cellIndex [])[particleIndex]? with
      | none => false
      | some p => cfg.ful p
    let idx : Option (Nat × Nat) :=
      if here then some (cellIndex, particleIndex) else advanceIteratorIndices cfg cells cellIndex particleIndex
    match idx with
    | none => none
    | some (c, i) => if cfg.endC < c then none else ((cells.getD c [])[i]?).map fun p => (c, i, p)

/-- The members of `ContainerIterator` together with the storage it points into, ContainerIterator.h:400-440. `cur` is the
particle behind `_currentParticle`, `none` for the null pointer. -/
structure IterState (P : Type) where
  cells : List (List P)
  vecs : List (List P)
  inVecs : Bool
  ci : Nat
  pi : Nat
  cur : Option P

/-- The loops over the additional vectors in `fetchParticleAtCurrentIndex`, ContainerIterator.h:344-355. -/
def findInVecs (cfg : IterCfg P) (vecs : List (List P)) (v i : Nat) : Option (Nat × Nat × P) :=
  if _h : vecs.length ≤ v ∨ cfg.stride = 0 then none
  else
    match h : (vecs.getD v [])[i]? with
    | none => findInVecs cfg vecs (v + cfg.stride) 0
    | some p => if cfg.ful p then some (v, i, p) else findInVecs cfg vecs v (i + 1)
termination_by (vecs.length - v, (vecs.getD v []).length - i)
decreasing_by
  · apply Prod.Lex.left; omega
  · apply Prod.Lex.right
    have := List.getElem?_eq_some_iff.1 h
    obtain ⟨hl, -⟩ := this
    omega

/-- The second half of `fetchParticleAtCurrentIndex`, ContainerIterator.h:342-360. -/
def fetchVecs (cfg : IterCfg P) (s : IterState P) : IterState P :=
  match findInVecs cfg s.vecs s.ci s.pi with
  | some (v, i, p) => { s with ci := v, pi := i, cur := some p }
  | none => { s with ci := idxMod - 1, pi := idxMod - 1, cur := none }

/-- `fetchParticleAtCurrentIndex`, ContainerIterator.h:320-361. -/
def fetch (cfg : IterCfg P) (s : IterState P) : IterState P :=
  if s.inVecs then fetchVecs cfg s
  else
    match getParticleImpl cfg s.cells s.ci s.pi with
    | some (c, i, p) => { s with ci := c, pi := i, cur := some p }
    | none =>
      if s.vecs = [] then { s with ci := 0, pi := 0, cur := none }
      else fetchVecs cfg { s with ci := cfg.thread, pi := 0, inVecs := true }

/-- The constructor, ContainerIterator.h:240-261. -/
def iterBegin (cfg : IterCfg P) (cells vecs : List (List P)) : IterState P :=
  fetch cfg { cells := cells, vecs := vecs, inVecs := false, ci := 0, pi := 0, cur := none }

/-- `operator++`, ContainerIterator.h:272-277. -/
def iterNext (cfg : IterCfg P) (s : IterState P) : IterState P :=
  fetch cfg { s with pi := (s.pi + 1) % idxMod }

/-- Assignment through the iterator, `*iter = p`. -/
def iterWrite (s : IterState P) (p : P) : IterState P :=
  if s.inVecs then { s with vecs := s.vecs.set s.ci ((s.vecs.getD s.ci []).set s.pi p), cur := some p }
  else { s with cells := s.cells.set s.ci ((s.cells.getD s.ci []).set s.pi p), cur := some p }

/-- `deleteCurrentParticle`, ContainerIterator.h:368-395, with `deleteParticle(cellIndex, particleIndex)`,
LinkedCells.h:297-304. In the branch for additional vectors the code reads `*_currentParticle` also when the current
particle was the last one of a longer vector; the element has just been removed by `pop_back` and the bytes read are those
of the removed particle. The model reads that particle. -/
def deleteCurrent (cfg : IterCfg P) (s : IterState P) : IterState P :=
  let s' : IterState P :=
    if s.inVecs then
      let vec := s.vecs.getD s.ci []
      let vec' := swapDelete vec s.pi
      let s1 := { s with vecs := s.vecs.set s.ci vec' }
      let now : Option P := (vec'[s.pi]?).or vec.getLast?
      if vec' = [] ∨ (now.map cfg.ful).getD false = false then iterNext cfg s1 else s1
    else
      let cell := s.cells.getD s.ci []
      let cell' := swapDelete cell s.pi
      let s1 := { s with cells := s.cells.set s.ci cell' }
      if ¬ s.pi < cell'.length then iterNext cfg s1
      else if ((cell'[s.pi]?).map cfg.ful).getD false = false then iterNext cfg s1
      else s1
  { s' with pi := (s'.pi + idxMod - 1) % idxMod }

/-- One visit: where, which particle, and what the loop body made of it (`none`: deleted). -/
structure Visit (P : Type) where
  inVecs : Bool
  idx : Nat
  before : P
  after : Option P

/-- The state after the loop body has overwritten (`some`) or deleted (`none`) the current particle. -/
def afterBody (cfg : IterCfg P) (s : IterState P) : Option P → IterState P
  | some p => iterWrite s p
  | none => deleteCurrent cfg s

/-- A user loop `for (auto iter = begin(...); iter.isValid(); ++iter) body(*iter)`. The body may depend on everything visited
so far. It overwrites the particle (`some`) or deletes it through the iterator (`none`). `none` as result means that the loop
has not ended within the given number of rounds. -/
def iterLoop (cfg : IterCfg P) (body : List P → P → Option P) : Nat → List P → IterState P → Option (List (Visit P) × IterState P)
  | 0, _, _ => none
  | rounds + 1, seen, s =>
    match s.cur with
    | none => some ([], s)
    | some p =>
      let r := body seen p
      (iterLoop cfg body rounds (seen ++ [p]) (iterNext cfg (afterBody cfg s r))).map fun (vs, t) => (⟨s.inVecs, s.ci, p, r⟩ :: vs, t)

end

/-- A particle as far as storage is concerned: identifier, position, ownership state
(/repo/src/autopas/particles/ParticleBase.h). Everything else the user stores travels with it unchanged. -/
structure Particle where
  id : Nat
  pos : V3 Rat
  own : Ownership
deriving DecidableEq, Repr

/-- `boxesOverlap`, /repo/src/autopas/utils/inBox.h:66-74. -/
def boxesOverlap (aLo aHi bLo bHi : V3 Rat) : Bool :=
  (decide (aHi.x > bLo.x) && decide (bHi.x > aLo.x)) && (decide (aHi.y > bLo.y) && decide (bHi.y > aLo.y)) &&
    (decide (aHi.z > bLo.z) && decide (bHi.z > aLo.z))

/-- `getCellBoundingBox(index1d)`, CellBlock3D.h:443-478. -/
def CellBlock.cellBox (b : CellBlock) (index1d : Nat) : V3 Rat × V3 Rat :=
  let i := oneToThreeD index1d b.dims
  let bx := b.x.boundingBox id i.x
  let byy := b.y.boundingBox id i.y
  let bz := b.z.boundingBox id i.z
  (⟨bx.1, byy.1, bz.1⟩, ⟨bx.2, byy.2, bz.2⟩)

/-- `get1DIndexOfPosition`, CellBlock3D.h:314-318, in exact arithmetic. -/
def CellBlock.flatIndexOfPosition (b : CellBlock) (pos : V3 Rat) : Nat := threeToOneD (b.indexOfPosition id pos) b.dims

/-- Number of cells including halo. -/
def CellBlock.numCells (b : CellBlock) : Nat := b.x.dim * b.y.dim * b.z.dim

/-- Behaviour part of `cellIsRelevant`, LinkedCells.h:496-499. -/
def cellMatchesBehavior (b : CellBlock) (behavior c : Nat) : Bool :=
  (decide (behavior &&& ibOwned ≠ 0) && !b.cellCanContainHalo c) || (decide (behavior &&& ibHalo ≠ 0) && b.cellCanContainHalo c)

/-- Thread number and stride: `forceSequential` iterates everything in every thread, LinkedCells.h:262, :492 and
ContainerIterator.h:245, :333. -/
def iterThread (behavior t : Nat) : Nat := if behavior &&& ibForceSequential ≠ 0 then 0 else t
def iterStride (behavior numThreads : Nat) : Nat := if behavior &&& ibForceSequential ≠ 0 then 1 else numThreads

/-- The iterator returned by `LinkedCells::begin`, thread `t` of `numThreads`: LinkedCells.h:205-214, :243-262, :492-510. -/
def lcIterCfg (b : CellBlock) (behavior numThreads t : Nat) : IterCfg Particle where
  ful p := fulfillsOwnership behavior p.own
  rel c := cellMatchesBehavior b behavior c
  startC := if behavior &&& ibHalo = 0 then b.firstOwned else 0
  endC := if behavior &&& ibHalo = 0 then b.lastOwned else b.numCells - 1
  thread := iterThread behavior t
  stride := iterStride behavior numThreads

/-- `addScalar`, `subScalar`, `min`, `max` of /repo/src/autopas/utils/ArrayMath.h. -/
def V3.addScalar (a : V3 Rat) (s : Rat) : V3 Rat := ⟨a.x + s, a.y + s, a.z + s⟩
def V3.minimum (a b : V3 Rat) : V3 Rat := ⟨min a.x b.x, min a.y b.y, min a.z b.z⟩
def V3.maximum (a b : V3 Rat) : V3 Rat := ⟨max a.x b.x, max a.y b.y, max a.z b.z⟩

/-- The iterator returned by `LinkedCells::getRegionIterator`, thread `t` of `numThreads`. The region is clamped to the box
plus halo (ContainerIterator.h:252-258); cells are looked up in the region enlarged by `margin`, the code's
`_skinPerTimestep * getStepsSinceLastRebuild()` (LinkedCells.h:234-247, :500-508). -/
def lcRegionCfg (b : CellBlock) (boxMin boxMax : V3 Rat) (il margin : Rat) (lo hi : V3 Rat) (behavior numThreads t : Nat) :
    IterCfg Particle :=
  let rMax := V3.minimum hi (boxMax.addScalar il)
  let rMin := V3.maximum lo (boxMin.addScalar (-il))
  let sMin := rMin.addScalar (-margin)
  let sMax := rMax.addScalar margin
  { ful := fun p => inBoxB p.pos rMin rMax && fulfillsOwnership behavior p.own
    rel := fun c => cellMatchesBehavior b behavior c && boxesOverlap (b.cellBox c).1 (b.cellBox c).2 sMin sMax
    startC := b.flatIndexOfPosition sMin
    endC := b.flatIndexOfPosition sMax
    thread := iterThread behavior t
    stride := iterStride behavior numThreads }

end Verif
