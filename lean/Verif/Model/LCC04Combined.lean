import Verif.Model.LCInteract
import Mathlib.Data.List.Sort
import Mathlib.Logic.Function.Basic
import Verif.Spec.Forces
/-!
Model of the traversal `lc_c04_combined_SoA`:
/repo/src/autopas/containers/linkedCells/traversals/LCC04CombinedSoATraversal.h and LCC04SoACellHandler.h. The SoA buffers of the cells are
copied into combined buffers, the functor works on views of the combined buffers, and the buffers are written back.

An entry of a SoA buffer is a particle and the quantity (e.g. the force) that the functor has added up for it, in any commutative monoid `M`;
`F p q` is what `p` receives on account of `q`. Simplification: the buffers of a cell hold its particles, whatever their attributes.
-/
namespace Verif
open Spec

/-- Where SoA buffers are: in a cell, or in a combined buffer ("slice") of the thread. -/
inductive C04Ref
  | cell (i : Nat)
  | slot (s : Nat)
deriving DecidableEq

/-- `constructView(start, end)` of a SoA buffer, /repo/src/autopas/utils/SoA.h. -/
structure C04View where
  ref : C04Ref
  start : Nat
  stop : Nat

/-- What a thread works with: the SoA buffers of the cells and of its combined buffers (`_combinationSlices[threadID]`), the partial sums
`_combinationSlicesOffsets[threadID]` and `_currentSlices[..]`, LCC04SoACellHandler.h:183-186. -/
structure C04State (P M : Type) where
  mem : C04Ref → List (P × M)
  offsets : Nat → List Nat
  current : Nat

/-- The two tables `_baseOffsets` and `_offsets`; an entry of the second is `(offset1, interval)`. -/
structure C04Tables where
  base : List (List Nat)
  pairs : List (List (Nat × Nat × Nat))

/-! ## The tables -/

/-- `_baseOffsets`, LCC04SoACellHandler.h:332-337. -/
def c04BaseOffsets (dims : V3 Nat) (ov : V3 Nat) : List (List Nat) :=
  (List.range (ov.x + 1)).map fun x => (List.range (ov.y + 1)).map fun y => threeToOneD ⟨x, y, 0⟩ dims

/-- `computePairwiseCellOffsetsC08<c04CellPairs>`, stripe `x`, LCC08CellHandlerUtility.cpp:59-149 (:136-138): pairs `(offset2, offset1)` in the
order of the loops. The offsets are never negative. -/
def c04CellPairs (dims : V3 Nat) (cl : V3 Rat) (il : Rat) (x : Nat) : List (Nat × Nat) :=
  ((c08Indices cl il).filter fun t => t.1 = (x : Int)).map fun t =>
    ((c08Offset dims cl il t).1.toNat, (c08Offset dims cl il t).2.1.toNat)

/-- State of the loop that collects the intervals of a stripe: `current`, `startID`, `endID` and the entries pushed so far. -/
abbrev C04Collect := (Nat × Nat × Nat) × List (Nat × Nat × Nat)

/-- One iteration, LCC04SoACellHandler.h:360-370. -/
def c04CollectStep (baseOffsets : List Nat) (s : C04Collect) (e : Nat × Nat) : C04Collect :=
  let s : C04Collect :=
    if s.1.1 ≠ e.1 then ((e.1, baseOffsets.idxOf e.2, baseOffsets.idxOf e.2), s.2 ++ [s.1]) else s
  ((s.1.1, s.1.2.1, s.1.2.2 + 1), s.2)

/-- The intervals of a stripe, LCC04SoACellHandler.h:349-373; `std::stable_sort` by the first component. -/
def c04Intervals (baseOffsets : List Nat) (stripe : List (Nat × Nat)) : List (Nat × Nat × Nat) :=
  match stripe.insertionSort (fun a b => a.1 ≤ b.1) with
  | [] => []
  | e :: l =>
    let r := (e :: l).foldl (c04CollectStep baseOffsets) ((e.1, baseOffsets.idxOf e.2, baseOffsets.idxOf e.2), [])
    r.2 ++ [r.1]

/-- `setupIntervals`, LCC04SoACellHandler.h:329-375. -/
def c04Setup (dims : V3 Nat) (cl : V3 Rat) (il : Rat) : C04Tables :=
  let ov := (overlapOf il cl).toNat
  let base := c04BaseOffsets dims ov
  ⟨base, (List.range (ov.x + 1)).map fun x => c04Intervals (base.getD x []) (c04CellPairs dims cl il x)⟩

/-! ## Buffers and functor calls -/

section
variable {P M : Type} [DecidableEq P] [AddCommMonoid M]

/-- The particles of a view. -/
def C04State.read (st : C04State P M) (v : C04View) : List P := (((st.mem v.ref).drop v.start).take (v.stop - v.start)).map Prod.fst

/-- The functor adds `g p` to every entry of the view. -/
def C04State.add (st : C04State P M) (v : C04View) (g : P → M) : C04State P M :=
  let l := st.mem v.ref
  let l' := l.take v.start ++ ((l.drop v.start).take (v.stop - v.start)).map (fun e => (e.1, e.2 + g e.1)) ++ l.drop v.stop
  { st with mem := Function.update st.mem v.ref l' }

/-- `SoAFunctorSingle(view, newton3)` (documented meaning, /repo/src/autopas/baseFunctors/PairwiseFunctor.h:61-73). -/
def C04State.single (F : P → P → M) (newton3 : Bool) (st : C04State P M) (v : C04View) : C04State P M :=
  st.add v (accumulated F (soaSingle newton3 (st.read v)))

/-- `SoAFunctorPair(view1, view2, newton3)` (documented meaning, PairwiseFunctor.h:93-106). -/
def C04State.pair (F : P → P → M) (newton3 : Bool) (st : C04State P M) (v1 v2 : C04View) : C04State P M :=
  let g := accumulated F (soaPair newton3 (st.read v1) (st.read v2))
  if newton3 then (st.add v1 g).add v2 g else st.add v1 g

/-- Both directions: LCC04SoACellHandler.h:225-228, :259-262. -/
def C04State.both (F : P → P → M) (newton3 : Bool) (st : C04State P M) (v1 v2 : C04View) : C04State P M :=
  let st := st.pair F newton3 v1 v2
  if newton3 then st else st.pair F newton3 v2 v1

/-- `writeCellIntoBuffer`, LCC04SoACellHandler.h:278-296; `size i` is `cells[i].size()`. -/
def C04State.load (size : Nat → Nat) (t : C04Tables) (base : Nat) (st : C04State P M) (bufferSlice cellSlice : Nat) : C04State P M :=
  let others := (t.base.getD cellSlice []).map fun o => base + o
  { st with
    mem := Function.update st.mem (.slot bufferSlice) (others.flatMap fun i => st.mem (.cell i))
    offsets := Function.update st.offsets bufferSlice ((others.map size).scanl (· + ·) 0) }

/-- One round of `writeBufferIntoCell`, LCC04SoACellHandler.h:305-325. (A wrong number of particles is only logged.) `dummy` is what
`resizeArrays` would fill a buffer with that is too short. -/
def C04State.storeOne (dummy : P × M) (t : C04Tables) (base bufferSlice cellSlice : Nat) (st : C04State P M) (i : Nat) : C04State P M :=
  let start := (st.offsets bufferSlice).getD i 0
  let stop := (st.offsets bufferSlice).getD (i + 1) 0
  if start = stop then st
  else
    let buffer := st.mem (.slot bufferSlice)
    let buffer := buffer.take stop ++ List.replicate (stop - buffer.length) dummy
    let cell := C04Ref.cell (base + (t.base.getD cellSlice []).getD i 0)
    { st with mem := Function.update (Function.update st.mem (.slot bufferSlice) buffer) cell (buffer.drop start) }

/-- `writeBufferIntoCell`, LCC04SoACellHandler.h:298-327: from the last cell to the first. -/
def C04State.store (dummy : P × M) (t : C04Tables) (base : Nat) (st : C04State P M) (bufferSlice cellSlice : Nat) : C04State P M :=
  (List.range (t.base.getD cellSlice []).length).reverse.foldl (C04State.storeOne dummy t base bufferSlice cellSlice) st

/-- The interactions of one entry of `_offsets`, LCC04SoACellHandler.h:204-263. -/
def C04State.entry (F : P → P → M) (newton3 : Bool) (size : Nat → Nat) (t : C04Tables) (base slice : Nat) (st : C04State P M)
    (e : Nat × Nat × Nat) : C04State P M :=
  let numSlices := t.base.length
  let other : C04View := ⟨.slot slice, (st.offsets slice).getD e.2.1 0, (st.offsets slice).getD e.2.2 0⟩
  if e.1 = 0 then
    if size base = 0 then st
    else if slice = st.current then
      let stripe : C04View := ⟨.slot st.current, 0, size base⟩
      (st.single F newton3 stripe).both F newton3 stripe ⟨.slot st.current, size base, (st.mem (.slot st.current)).length⟩
    else st.both F newton3 ⟨.slot st.current, 0, size base⟩ other
  else if e.1 = (t.base.headD []).getLastD 0 then
    st.both F newton3 ⟨.slot st.current, (st.offsets st.current).getD ((st.offsets st.current).length - 2) 0,
      (st.mem (.slot st.current)).length⟩ other
  else if e.1 = (t.base.getLastD []).headD 0 then
    let index := (st.current + numSlices - 1) % numSlices
    if (st.offsets index).getD 1 0 = 0 then st
    else st.both F newton3 ⟨.slot index, 0, (st.offsets index).getD 1 0⟩ other
  else st.both F newton3 ⟨.cell (base + e.1), 0, (st.mem (.cell (base + e.1))).length⟩ other

/-- `processBaseCell`, LCC04SoACellHandler.h:176-276. -/
def C04State.baseCell (dummy : P × M) (F : P → P → M) (newton3 : Bool) (size : Nat → Nat) (t : C04Tables) (dims ov : V3 Nat) (y z : Nat)
    (st : C04State P M) (x : Nat) : C04State P M :=
  let base := threeToOneD ⟨x, y, z⟩ dims
  let numSlices := t.base.length
  let st :=
    if x = 0 then (List.range numSlices).foldl (fun st slice => C04State.load size t base st slice slice) { st with current := 0 }
    else
      let st := C04State.load size t base st st.current (numSlices - 1)
      { st with current := (st.current + 1) % numSlices }
  let st := (List.range numSlices).foldl (fun st slice =>
    (t.pairs.getD ((slice + st.current) % numSlices) []).foldl (C04State.entry F newton3 size t base slice) st) st
  let st := C04State.store dummy t base st st.current 0
  if x = dims.x - ov.x - 1 then
    ((List.range numSlices).drop 1).foldl (fun st slice => C04State.store dummy t base st ((st.current + slice) % numSlices) slice) st
  else st

/-- A row `(y, z)` of base cells, processed by one thread (`collapse(2)`,
/repo/src/autopas/containers/cellTraversals/ColorBasedTraversal.h:150-158; C04BasedTraversal.h:52-61). -/
def C04State.row (dummy : P × M) (F : P → P → M) (newton3 : Bool) (size : Nat → Nat) (t : C04Tables) (dims ov : V3 Nat) (st : C04State P M)
    (row : Nat × Nat) : C04State P M :=
  (forUp 0 (dims.sub ov).x 1).foldl (C04State.baseCell dummy F newton3 size t dims ov row.1 row.2) st

/-- What a thread finds in its own combined buffers when it starts a row. -/
structure C04Buffers (P M : Type) where
  slots : Nat → List (P × M)
  offsets : Nat → List Nat
  current : Nat

/-- The rows of the traversal one after the other: each is processed by some thread, with what that thread has in its buffers. Rows of one
colour run at the same time in reality; they touch different cells (`C81_rows_disjoint`). -/
def lcC04Combined (dummy : P × M) (F : P → P → M) (newton3 : Bool) (size : Nat → Nat) (t : C04Tables) (dims ov : V3 Nat)
    (cells : Nat → List (P × M)) (rows : List ((Nat × Nat) × C04Buffers P M)) : Nat → List (P × M) :=
  rows.foldl (fun cells r =>
    let st : C04State P M := ⟨fun | .cell i => cells i | .slot s => r.2.slots s, r.2.offsets, r.2.current⟩
    fun i => (st.row dummy F newton3 size t dims ov r.1).mem (.cell i)) cells

end

/-- The rows of the colours, C04BasedTraversal.h:52-61: `c04Bases` without x. -/
def c04Rows (dims ov : V3 Nat) : List (List (Nat × Nat)) :=
  (List.range ((ov.y + 1) * (ov.z + 1))).map fun col =>
    let start := oneToThreeD col ⟨1, ov.y + 1, ov.z + 1⟩
    (forUp start.z (dims.sub ov).z (ov.z + 1)).flatMap fun z => (forUp start.y (dims.sub ov).y (ov.y + 1)).map fun y => (y, z)

end Verif
