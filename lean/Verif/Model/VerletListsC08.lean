import Verif.Model.VerletListsCells
/-!
The list construction of VerletListsCells for the traversal `vlc_c08`, and that traversal:
/repo/src/autopas/containers/verletListsCellBased/verletListsCells/VerletListsCells.h:122-280 (`rebuildNeighborListsC08`),
VerletListsCellsHelpers.cpp:26-87 (`buildC08BaseStep`), traversals/VLCC08Traversal.h:75-89.
The sanity check of VerletListsCells.h:124-128 never fires since the constructor replaces cell size factors below one by one
(/repo/src/autopas/containers/verletListsCellBased/VerletListsLinkedBase.h:45-49).
-/
namespace Verif

/-- One round of the loops of `buildC08BaseStep`, VerletListsCellsHelpers.cpp:49-69: the two offsets, the smaller one first, and the
estimation factor. `fac` is the table `estimatorFactors` (:43), which contains multiples of π; its values do not matter. -/
def c08BaseStepTuple (fac : Nat → Rat) (dims : V3 Nat) (x y z : Int) : Int × Int × Rat :=
  let baseCell : Int := 0
  let partnerCell := threeToOneDInt x y z dims.toInt
  let (baseCell, partnerCell) := if x < 0 then (baseCell - x, partnerCell - x) else (baseCell, partnerCell)
  let (baseCell, partnerCell) := if y < 0 then (baseCell - y * dims.x, partnerCell - y * dims.x) else (baseCell, partnerCell)
  let (baseCell, partnerCell) :=
    if z < 0 then (baseCell - z * dims.x * dims.y, partnerCell - z * dims.x * dims.y) else (baseCell, partnerCell)
  (min baseCell partnerCell, max baseCell partnerCell, fac (x.natAbs + y.natAbs + z.natAbs))

/-- Appending what is not there yet, VerletListsCellsHelpers.cpp:67-71. -/
def dedupFold {X : Type} [DecidableEq X] (l offsets : List X) : List X :=
  l.foldl (fun offsets tuple => if tuple ∈ offsets then offsets else offsets ++ [tuple]) offsets

/-- `buildC08BaseStep`, VerletListsCellsHelpers.cpp:26-87. -/
def c08BaseStep (fac : Nat → Rat) (dims : V3 Nat) : List (Int × Int × Rat) :=
  let offsets := dedupFold ((forInt (-1) 1).flatMap fun z => (forInt (-1) 1).flatMap fun y => (forInt (-1) 1).map fun x =>
      c08BaseStepTuple fac dims x y z) []
  offsets.mergeSort fun a b => if a.1 = b.1 then decide (a.2.1 ≤ b.2.1) else decide (a.1 ≤ b.1)

section
variable {P : Type} [DecidableEq P]

/-- The lists of a base cell under construction; `none` is `nullptr`. -/
abbrev C08Lists (P : Type) := List (Option P × List P)

/-- `insert`, VerletListsCells.h:164-196. -/
def c08Insert (p1 : P) (p1Index : Nat) (p2 : P) (cell1IsBase : Bool) (l : C08Lists P) : C08Lists P :=
  if cell1IsBase then l.modify p1Index fun e => (e.1, e.2 ++ [p2])
  else if some p1 ∈ l.map Prod.fst then l.modify (l.findIdx fun e => e.1 = some p1) fun e => (e.1, e.2 ++ [p2])
  else if none ∈ l.map Prod.fst then l.modify (l.findIdx fun e => e.1 = none) fun e => (some p1, e.2 ++ [p2])
  else l ++ [(some p1, [p2])]

/-- The lists of a base cell before pairs are inserted, VerletListsCells.h:143-150, 215-230: whatever was there was reset to
`(nullptr, empty)`; `estimate` (:217) is the number of pairs provided. -/
def c08InitLists (estimate : Nat) (baseCell : List P) : C08Lists P :=
  (baseCell.map fun p => (some p, [])) ++ List.replicate (estimate - baseCell.length) (none, [])

/-- The particle pairs of two cells, with their places in the cells, in the order of the loops VerletListsCells.h:243-248 (`cell1 = cell2`:
each pair once). -/
def c08ParticlePairs (cells : List (List P)) (c1 c2 : Nat) : List ((P × Nat) × (P × Nat)) :=
  (cells.getD c1 []).zipIdx.flatMap fun a =>
    ((cells.getD c2 []).zipIdx.drop (if c1 = c2 then a.2 + 1 else 0)).map fun b => (a, b)

/-- The test VerletListsCells.h:249-257. -/
def c08IsNeighbour (pos : P → V3 Rat) (own : P → Ownership) (il : Rat) (p1 p2 : P) : Bool :=
  !(decide (p1 = p2) || decide (own p1 = .dummy) || decide (own p2 = .dummy)) && decide (Spec.distSq (pos p2) (pos p1) < il * il)

/-- One particle pair, VerletListsCells.h:244-264. -/
def c08PairStep (pos : P → V3 Rat) (own : P → Ownership) (il : Rat) (newton3 : Bool) (base c1 c2 : Nat) (l : C08Lists P)
    (t : (P × Nat) × (P × Nat)) : C08Lists P :=
  if c08IsNeighbour pos own il t.1.1 t.2.1 then
    let l := c08Insert t.1.1 t.1.2 t.2.1 (base = c1) l
    if newton3 then l else c08Insert t.2.1 t.2.2 t.1.1 (base = c2) l
  else l

/-- The body of the loop over base cells, VerletListsCells.h:210-266. -/
def c08BuildBase (pos : P → V3 Rat) (own : P → Ownership) (il : Rat) (newton3 : Bool) (blk : CellBlock) (cells : List (List P))
    (offsets : List (Int × Int × Rat)) (estimate base : Nat) : C08Lists P :=
  offsets.foldl (fun l o =>
    let c1 := ((base : Int) + o.1).toNat
    let c2 := ((base : Int) + o.2.1).toNat
    if blk.cellCanContainHalo c1 ∧ blk.cellCanContainHalo c2 then l
    else (c08ParticlePairs cells c1 c2).foldl (c08PairStep pos own il newton3 base c1 c2) l)
    (c08InitLists estimate (cells.getD base []))

/-- The cleanup VerletListsCells.h:271-279. -/
def c08Cleanup (l : C08Lists P) : List (P × List P) := l.filterMap fun e => e.1.map fun p => (p, e.2)

/-- `rebuildNeighborListsC08`, VerletListsCells.h:122-280. The loop over base cells is parallel; each round only touches the lists of its
base cell. Lists of cells of the last layers are reset and stay empty. `estimate` stands for `estimateNumLists`. -/
def vlcBuildC08 (pos : P → V3 Rat) (own : P → Ownership) (il : Rat) (newton3 : Bool) (blk : CellBlock) (cells : List (List P))
    (fac : Nat → Rat) (estimate : Nat → Nat) : VLCLists P :=
  (List.range cells.length).map fun k =>
    let c := oneToThreeD k blk.dims
    if c.x < blk.dims.x - 1 ∧ c.y < blk.dims.y - 1 ∧ c.z < blk.dims.z - 1 then
      c08Cleanup (c08BuildBase pos own il newton3 blk cells (c08BaseStep fac blk.dims) (estimate k) k)
    else []

end

/-- The base cells of `vlc_c08`, VLCC08Traversal.h:80-84: colours, in each colour single base cells that may run concurrently. -/
def vlcC08Bases (dims : V3 Nat) (cl : V3 Rat) (il : Rat) : List (List (List (V3 Nat))) :=
  (c08Bases dims (overlapOf il cl).toNat).map fun colour => colour.map fun b => [b]

end Verif
