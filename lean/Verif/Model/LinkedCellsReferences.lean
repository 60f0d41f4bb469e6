import Verif.Model.LogicParticles
/-!
Model of the container `linkedCellsReferences`: /repo/src/autopas/containers/linkedCells/LinkedCellsReferences.h with
/repo/src/autopas/containers/linkedCells/ParticleVector.h and /repo/src/autopas/cells/ReferenceParticleCell.h. All particles
live in one `std::vector`; the cells hold pointers into it.

A pointer is the pair of the allocation it points into and the index in that allocation. Growing the vector makes a new
allocation; following a pointer into an older one, or behind the end, is undefined behaviour. How much the vector grows is the
standard library's choice, here any function `grow`.

`ExceptionHandler::exception` is taken in its default mode: the exception leaves the operation.
-/
namespace Verif

/-- A `Particle *` into the particle vector: allocation and index. -/
structure LRPtr where
  gen : Nat
  idx : Nat
deriving DecidableEq, Repr

/-- The members of `LinkedCellsReferences` (LinkedCellsReferences.h:596-613) and of `ParticleVector` (ParticleVector.h:128-139). -/
structure LRState where
  /-- `_particleListImp` -/
  arr : List Particle
  /-- its capacity -/
  cap : Nat
  /-- counts its allocations -/
  gen : Nat
  /-- `_dirty` -/
  dirty : Bool
  /-- `_dirtyIndex` -/
  dirtyIndex : Nat
  /-- `_cells` -/
  cells : List (List LRPtr)
deriving DecidableEq, Repr

/-- After construction, LinkedCellsReferences.h:60-66. -/
def LRState.init (c : LHParams) : LRState :=
  { arr := [], cap := 0, gen := 0, dirty := false, dirtyIndex := 0, cells := List.replicate c.block.numCells [] }

/-- Following a pointer; `none` is undefined behaviour. -/
def LRState.deref (st : LRState) (q : LRPtr) : Option Particle := if q.gen = st.gen then st.arr[q.idx]? else none

/-- What one sees through the pointers of a cell. -/
def LRState.viewCell (st : LRState) (l : List LRPtr) : Option (List Particle) := l.mapM st.deref

/-- What one sees through the cells: `_cells[i][j]` for all `i`, `j`. -/
def LRState.view (st : LRState) : Option (List (List Particle)) := st.cells.mapM st.viewCell

/-- `_cells[k][i]`, ReferenceParticleCell.h:175. -/
def LRState.particleAt (st : LRState) (k i : Nat) : Option Particle := ((st.cells.getD k [])[i]?).bind st.deref

/-- `ParticleVector::push_back`, ParticleVector.h:66-74. -/
def LRState.pushBack (grow : Nat → Nat) (st : LRState) (p : Particle) : LRState :=
  let st := { st with dirty := true }
  if st.cap = st.arr.length then
    { st with dirtyIndex := 0, arr := st.arr ++ [p], cap := grow st.cap, gen := st.gen + 1 }
  else { st with arr := st.arr ++ [p] }

/-- The test of `addParticleReference`, ReferenceParticleCell.h:58-59, for a particle that is not a dummy. The cells' possible
ownership states are `halo` for halo cells and `owned` for the others, /repo/src/autopas/containers/CellBlock3D.h:405-412. -/
def lrFits (b : CellBlock) (k : Nat) (p : Particle) : Bool :=
  if b.cellCanContainHalo k then decide (p.own = .halo) else decide (p.own = .owned)

/-- The loop body of `updateDirtyParticleReferences`, LinkedCellsReferences.h:161-168, for the element at index `i`. -/
def lrSortOne (b : CellBlock) (gen : Nat) (arr : List Particle) (cells : List (List LRPtr)) (i : Nat) : Outcome (List (List LRPtr)) :=
  match arr[i]? with
  | none => .ub
  | some p =>
    if p.own = .dummy then .ok cells
    else
      let k := b.flatIndexOfPosition p.pos
      if lrFits b k p then .ok (cells.set k (cells.getD k [] ++ [⟨gen, i⟩])) else .throws

/-- The loop of `updateDirtyParticleReferences` over the given indices. -/
def lrSort (b : CellBlock) (gen : Nat) (arr : List Particle) : List Nat → List (List LRPtr) → Outcome (List (List LRPtr))
  | [], cells => .ok cells
  | i :: is, cells => (lrSortOne b gen arr cells i).bind (lrSort b gen arr is)

/-- `updateDirtyParticleReferences`, LinkedCellsReferences.h:153-171, with `markAsClean`, ParticleVector.h:35-38. -/
def LRState.updateDirty (c : LHParams) (st : LRState) : Outcome LRState :=
  if st.dirty then
    let cells := if st.dirtyIndex = 0 then st.cells.map fun _ => [] else st.cells
    (lrSort c.block st.gen st.arr (List.range' st.dirtyIndex (st.arr.length - st.dirtyIndex)) cells).bind fun cells =>
      .ok { st with cells := cells, dirty := false, dirtyIndex := st.arr.length }
  else .ok st

/-- `addParticleImpl` and `addHaloParticleImpl`, LinkedCellsReferences.h:85-100. The lock makes concurrent calls take place one
after the other. -/
def LRState.add (c : LHParams) (grow : Nat → Nat) (st : LRState) (p : Particle) : Outcome LRState :=
  (st.pushBack grow p).updateDirty c

/-- Writing through the pointers of all cells: the particle in place `j` of cell `k` becomes `v[k][j]`. (For the iterators,
`updateHaloParticle` and the collector of leaving particles, all of which change particles in place.) -/
def LRState.writeBack (st : LRState) (v : List (List Particle)) : LRState :=
  { st with arr := ((st.cells.flatten.map LRPtr.idx).zip v.flatten).foldl (fun a x => a.set x.1 x.2) st.arr }

/-- `updateHaloParticle`, LinkedCellsReferences.h:105-115. -/
def LRState.updateHalo (c : LHParams) (st : LRState) (p : Particle) : Outcome LRState :=
  match st.view with
  | none => .ub
  | some v =>
    match updateHaloIn v p (nearbyHaloCells c.block p.pos c.skin) with
    | some v' => .ok (st.writeBack v')
    | none => .ok st

/-- The user gives every owned particle a new position through an iterator. -/
def LRState.move (st : LRState) (f : Particle → V3 Rat) : Outcome LRState :=
  match st.view with
  | none => .ub
  | some v => .ok (st.writeBack (v.map (List.map fun p => if p.own = .owned then { p with pos := f p } else p)))

/-- `deleteParticle(cellIndex, particleIndex)`, LinkedCellsReferences.h:287-291. -/
def LRState.delete (st : LRState) (k i : Nat) : Outcome LRState :=
  match (st.cells.getD k [])[i]? with
  | none => .ub
  | some q =>
    match st.deref q with
    | none => .ub
    | some p => .ok { st with arr := st.arr.set q.idx { p with own := .dummy } }

/-- `deleteAllParticles`, /repo/src/autopas/containers/CellBasedParticleContainer.h:99-108, which `LinkedCellsReferences`
inherits. -/
def LRState.deleteAll (st : LRState) : LRState := { st with cells := st.cells.map fun _ => [] }

/-- The test in `updateContainer`, LinkedCellsReferences.h:319. -/
def lrVerdict (b : CellBlock) (k : Nat) (p : Particle) : Fate :=
  if p.own = .owned ∧ inBoxB p.pos (b.cellBox k).1 (b.cellBox k).2 = false then .take else .keep

/-- The loop over one cell in `updateContainer`, LinkedCellsReferences.h:318-333, from index `i` on: the particle vector, the
remaining pointers and what was taken out. `none`: undefined behaviour. -/
def lrPurge (b : CellBlock) (k gen : Nat) (arr : List Particle) (l : List LRPtr) (i : Nat) :
    Option (List Particle × List LRPtr × List Particle) :=
  if h : i < l.length then
    let z := l.getLast (by rintro rfl; simp at h)
    match (if l[i].gen = gen then arr[l[i].idx]? else none), (if z.gen = gen then arr[z.idx]? else none) with
    | some p, some w =>
      match lrVerdict b k p with
      | .take =>
        let arr := arr.set l[i].idx w
        let arr := arr.set z.idx { w with own := .dummy }
        (lrPurge b k gen arr l.dropLast i).map fun r => (r.1, r.2.1, p :: r.2.2)
      | _ => lrPurge b k gen arr l (i + 1)
    | _, _ => none
  else some (arr, l, [])
termination_by l.length - i
decreasing_by
  · simp only [List.length_dropLast]; omega
  · omega

/-- One cell in `updateContainer`, LinkedCellsReferences.h:308-334: pointers to dummies are dropped, then the loop. -/
def lrCleanCell (b : CellBlock) (k : Nat) (acc : LRState × List Particle) : Option (LRState × List Particle) :=
  let st := acc.1
  let l := st.cells.getD k []
  (st.viewCell l).bind fun v =>
    let l := ((l.zip v).filter fun x => decide (x.2.own ≠ .dummy)).map Prod.fst
    (lrPurge b k st.gen st.arr l 0).map fun r => ({ st with arr := r.1, cells := st.cells.set k r.2.1 }, acc.2 ++ r.2.2)

/-- All cells. They are treated in parallel; no two cells point to the same particle, and the model uses the order of the
cells. -/
def lrCleanCells (b : CellBlock) : List Nat → LRState × List Particle → Option (LRState × List Particle)
  | [], acc => some acc
  | k :: ks, acc => (lrCleanCell b k acc).bind (lrCleanCells b ks)

/-- The second loop of `updateContainer`, LinkedCellsReferences.h:340-353. -/
def lrReadd (c : LHParams) (grow : Nat → Nat) : List Particle → LRState × List Particle → Outcome (LRState × List Particle)
  | [], acc => .ok acc
  | p :: ps, acc =>
    if inBoxB p.pos c.bMin c.bMax then (acc.1.add c grow p).bind fun st => lrReadd c grow ps (st, acc.2)
    else lrReadd c grow ps (acc.1, acc.2 ++ [p])

/-- `deleteHaloParticles` (LinkedCellsReferences.h:120-123, ParticleVector.h:43-49), then `deleteDummyParticles`
(ParticleVector.h:54-60). `std::vector::erase` keeps the allocation. -/
def LRState.dropHaloAndDummies (c : LHParams) (st : LRState) : LRState :=
  { st with arr := (st.arr.filter fun p => decide (p.own ≠ .halo)).filter fun p => decide (p.own ≠ .dummy)
            cells := (List.range st.cells.length).map (clearHaloCells c.block.dims c.block.x.cpil fun i => st.cells.getD i [])
            dirty := true, dirtyIndex := 0 }

/-- `updateContainer(false)`, LinkedCellsReferences.h:298-375. `sched`: the order in which the threads get to sorting in the
particles that have left their cells. -/
def LRState.updateRebuild (c : LHParams) (grow : Nat → Nat) (sched : List Particle → List Particle) (st : LRState) :
    Outcome (LRState × List Particle) :=
  match lrCleanCells c.block (List.range st.cells.length) (st, []) with
  | none => .ub
  | some a =>
    (lrReadd c grow (sched a.2) (a.1, [])).bind fun r =>
      ((r.1.dropHaloAndDummies c).updateDirty c).bind fun st => .ok (st, r.2)

/-- `updateContainer(true)`, LinkedCellsReferences.h:294-296. -/
def LRState.updateKeep (c : LHParams) (contSteps : Nat) (order : List ((V3 Rat × V3 Rat) × Nat)) (st : LRState) :
    Outcome (LRState × List Particle) :=
  match st.view with
  | none => .ub
  | some v =>
    match collectLeaving c contSteps order v with
    | none => .diverges
    | some r => .ok (st.writeBack r.1, r.2)

/-- `collectLeavingParticlesFromBuffer(true)`, /repo/src/autopas/LogicHandler.h:111-126, for the particles of the buffers, the
step with which `LogicHandler::updateContainer` (LogicHandler.h:160-183) begins when it rebuilds. -/
def lrFlush (c : LHParams) (grow : Nat → Nat) : List Particle → LRState × List Particle → Outcome (LRState × List Particle)
  | [], acc => .ok acc
  | p :: ps, acc =>
    if p.own = .dummy then lrFlush c grow ps acc
    else if inBoxB p.pos c.bMin c.bMax then (acc.1.add c grow { p with own := .owned }).bind fun st => lrFlush c grow ps (st, acc.2)
    else lrFlush c grow ps (acc.1, acc.2 ++ [p])

end Verif
