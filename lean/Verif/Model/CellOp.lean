import Verif.Model.ColorTraversal
import Mathlib.Data.Rat.Floor
/-!
What a linked-cells traversal does, seen from outside: a list of calls to the cell functor.
Cell indices are `Int` so that an out-of-range index would be visible as such.
-/
namespace Verif

/-- A call to `CellFunctor::processCell(cells[i])` or `CellFunctor::processCellPair(cells[i], cells[j], dir)`
(/repo/src/autopas/baseFunctors/CellFunctor.h). `dir` is the sorting direction before normalisation
(normalisation divides by a positive length, which the exact model leaves out). -/
inductive CellOp where
  | self (i : Int)
  | pair (i j : Int) (dir : V3 Rat)
deriving DecidableEq

/-- `_overlap[d] = std::ceil(_interactionLength / _cellLength[d])`,
/repo/src/autopas/containers/cellTraversals/ColorBasedTraversal.h:47-49 and
/repo/src/autopas/containers/linkedCells/traversals/LCC08CellHandlerUtility.cpp:71
(exact arithmetic instead of `double`). -/
def overlapOf (il : Rat) (cl : V3 Rat) : V3 Int := ⟨⌈il / cl.x⌉, ⌈il / cl.y⌉, ⌈il / cl.z⌉⟩

/-- Conversion of a (non-negative) signed vector to the unsigned type of `_overlap`. -/
def V3.toNat (v : V3 Int) : V3 Nat := ⟨v.x.toNat, v.y.toNat, v.z.toNat⟩

/-- `static_cast_copy_array<int>(cellsPerDimension)` -/
def V3.toInt (v : V3 Nat) : V3 Int := ⟨v.x, v.y, v.z⟩

/-- `ArrayMath::dot` -/
def V3.dot (a b : V3 Rat) : Rat := a.x * b.x + a.y * b.y + a.z * b.z

/-- Gap vector between the borders of two cells whose indices differ by `(x, y, z)`:
`std::max(0l, std::abs(x) - 1l) * _cellLength[0]`, ... LCC18Traversal.h:133-137, LCC01Traversal.h:256-260. -/
def gapVec (cl : V3 Rat) (x y z : Int) : V3 Rat :=
  ⟨((max 0 ((x.natAbs : Int) - 1) : Int) : Rat) * cl.x, ((max 0 ((y.natAbs : Int) - 1) : Int) : Rat) * cl.y,
   ((max 0 ((z.natAbs : Int) - 1) : Int) : Rat) * cl.z⟩

/-- Sorting direction (before normalisation) from the base cell to the cell at offset `(x, y, z)`:
LCC18Traversal.h:148-153, LCC01Traversal.h:278-286. -/
def offsetSortDir (cl : V3 Rat) (x y z : Int) : V3 Rat :=
  if x = 0 ∧ y = 0 ∧ z = 0 then ⟨1, 1, 1⟩ else ⟨x * cl.x, y * cl.y, z * cl.z⟩

/-- Body of the loop in `processBaseCell`, LCC18Traversal.h:192-200 (also LCC01Traversal.h:464-472). -/
def baseCellOp (baseIndex : Int) (offset : Int) (dir : V3 Rat) : CellOp :=
  if baseIndex = baseIndex + offset then .self baseIndex else .pair baseIndex (baseIndex + offset) dir

end Verif
