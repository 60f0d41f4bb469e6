import Verif.Model.DirectSum
import Verif.Model.LCInteract
import Verif.Model.WholeInteractions
import Verif.Model.Remainder
/-!
The traversals for three-body functors, as calls to the three-body cell functor (/repo/src/autopas/baseFunctors/CellFunctor3B.h, AoS):
`ds_sequential` (/repo/src/autopas/containers/directSum/traversals/DSSequentialTraversal.h) and `lc_c01`
(/repo/src/autopas/containers/linkedCells/traversals/LCC01Traversal.h). There are no others (`getAllTriwiseOptions`, /repo/src/autopas/options/TraversalOption.h:236).
-/
namespace Verif

/-- A call to `CellFunctor3B::processCell(cells[i])`, `processCellPair(cells[i], cells[j], dir)` or
`processCellTriple(cells[i], cells[j], cells[k], dir)`. A call without sorting direction passes the default argument, the zero vector
(CellFunctor3B.h:84-85, 99-100). -/
inductive CellOp3 where
  | self (i : Int)
  | pair (i j : Int) (dir : V3 Rat)
  | triple (i j k : Int) (dir : V3 Rat)
deriving DecidableEq

section
variable {P : Type}

/-- The functor calls of one call to the cell functor, CellFunctor3B.h:185-288. (`f.soa` and `f.selfDir` play no role: AoS; a single cell is
sorted along (1, 1, 1), CellFunctor3B.h:310.) -/
def CellFunctorCfg.op3 (f : CellFunctorCfg P) (cells : List (PCell P)) : CellOp3 → List (TripleCall P)
  | .self i => processCell3 f.isHalo f.newton3 f.threshold f.cutoff (cellAt cells i) (f.sorted ⟨1, 1, 1⟩ (cellAt cells i).particles)
  | .pair i j dir => processCellPair3 f.newton3 f.bidirectional f.threshold f.cutoff dir (cellAt cells i) (cellAt cells j)
      (f.sorted dir (cellAt cells i).particles) (f.sorted dir (cellAt cells j).particles)
  | .triple i j k dir => processCellTriple f.newton3 f.bidirectional f.threshold f.cutoff dir (cellAt cells i) (cellAt cells j)
      (cellAt cells k) (f.sorted dir (cellAt cells i).particles) (f.sorted dir (cellAt cells j).particles)

/-- The functor calls of a traversal (in the order of one possible schedule). -/
def CellFunctorCfg.run3 (f : CellFunctorCfg P) (cells : List (PCell P)) (ops : List CellOp3) : List (TripleCall P) :=
  ops.flatMap (f.op3 cells)

/-- `traverseParticles` for three-body functors, DSSequentialTraversal.h:93-120; `n` is `cells.size()`. -/
def dsOps3 (n : Nat) : List CellOp3 :=
  .self 0 :: ((List.range (n - 1)).map fun i => .pair 0 ((i + 1 : Nat) : Int) (dsDirections.getD (i + 1) ⟨0, 0, 0⟩)) ++
    (List.range (n - 1)).flatMap fun i => ((List.range (n - 1)).filter fun j => i < j).map fun j =>
      .triple 0 ((i + 1 : Nat) : Int) ((j + 1 : Nat) : Int) (dsDirections.getD (i + 1) ⟨0, 0, 0⟩)

/-- `computeInteractions` of DirectSum with a three-body functor, DirectSum.h:152-158. -/
def dsCalls3 (f : CellFunctorCfg P) (cells : List (List P)) : List (TripleCall P) := f.run3 (dsPCells cells) (dsOps3 cells.length)

end

/-- One of the two threefold loops over the offsets of a cell, LCC01Traversal.h:319-321, 329-331. -/
def c01Cube (ov : V3 Int) : List (Int × Int × Int) :=
  (forInt (-ov.x) ov.x).flatMap fun x => (forInt (-ov.y) ov.y).flatMap fun y => (forInt (-ov.z) ov.z).map fun z => (x, y, z)

/-- Squared length of `cellDistance(x1, .., z2)`, LCC01Traversal.h:309-313. -/
def c01CellDistSq (cl : V3 Rat) (o1 o2 : Int × Int × Int) : Rat :=
  let g := gapVec cl (o1.1 - o2.1) (o1.2.1 - o2.2.1) (o1.2.2 - o2.2.2)
  g.dot g

/-- Offset of a cell in the cell array, LCC01Traversal.h:344-348. -/
def c01Flat (dims : V3 Nat) (o : Int × Int × Int) : Int := threeToOneDInt o.1 o.2.1 o.2.2 dims.toInt

/-- `computeTriwiseOffsets`, LCC01Traversal.h:301-367. An entry of the real table is (flat offset, flat offset, sorting direction), all
functions of the two offset vectors; the model stores the vectors. -/
def c01TriwiseOffsets (dims : V3 Nat) (cl : V3 Rat) (il : Rat) : List ((Int × Int × Int) × (Int × Int × Int)) :=
  let cube := c01Cube (overlapOf il cl)
  ((0, 0, 0), (0, 0, 0)) ::
    (cube.filter fun o1 => c01CellDistSq cl (0, 0, 0) o1 ≤ il * il).flatMap fun o1 =>
      (cube.filter fun o2 => c01CellDistSq cl o1 o2 ≤ il * il ∧ c01CellDistSq cl (0, 0, 0) o2 ≤ il * il ∧
        c01Flat dims o1 < c01Flat dims o2).map fun o2 => (o1, o2)

/-- Body of the loop in `processBaseCellTriwise`, LCC01Traversal.h:485-502, with the sorting direction of :353-360 (before normalisation). -/
def c01TripleOp (dims : V3 Nat) (cl : V3 Rat) (baseIndex : Int) (e : (Int × Int × Int) × (Int × Int × Int)) : CellOp3 :=
  let otherIndex1 := baseIndex + c01Flat dims e.1
  let otherIndex2 := baseIndex + c01Flat dims e.2
  let d := if c01Flat dims e.1 = 0 then e.2 else e.1
  if baseIndex = otherIndex1 ∧ baseIndex = otherIndex2 then .self baseIndex
  else if baseIndex = otherIndex1 ∧ baseIndex ≠ otherIndex2 then .pair baseIndex otherIndex2 ⟨0, 0, 0⟩
  else if baseIndex ≠ otherIndex1 ∧ baseIndex = otherIndex2 then .pair baseIndex otherIndex1 ⟨0, 0, 0⟩
  else if baseIndex ≠ otherIndex1 ∧ otherIndex1 = otherIndex2 then .pair baseIndex otherIndex1 ⟨0, 0, 0⟩
  else .triple baseIndex otherIndex1 otherIndex2 ⟨d.1 * cl.x, d.2.1 * cl.y, d.2.2 * cl.z⟩

/-- `traverseParticles`, LCC01Traversal.h:517-534, with `processBaseCellTriwise`, :478-503: one list of calls per base cell. -/
def lcC01Triwise (dims : V3 Nat) (cl : V3 Rat) (il : Rat) : List (List CellOp3) :=
  (c01Bases dims (overlapOf il cl).toNat).flatten.map fun base =>
    (c01TriwiseOffsets dims cl il).map (c01TripleOp dims cl (threeToOneD base dims))

/-- `computeInteractions(functor, traversal)`, /repo/src/autopas/LogicHandler.h:1041-1101, for a three-body functor and the linked-cells container:
`container.computeInteractions` followed by `computeRemainderInteractions3B`. -/
def LHState.interactions3 (c : LHParams) (s : LHState) (f : CellFunctorCfg Slot) : List (TripleCall Slot) :=
  f.run3 (lcCells c.block (slotsOf 0 s.cells)) (lcC01Triwise c.block.dims c.block.cellLength c.il).flatten ++
    remainder3B Slot.pos Slot.own f.newton3 c.cutoff (slotsOf 0 s.cells).flatten (slotsOf 1 s.bufs) (slotsOf 2 s.haloBufs)

end Verif
