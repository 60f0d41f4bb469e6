import Verif.Model.CellOp
/-!
Model of the `lc_c18` traversal:
/repo/src/autopas/containers/linkedCells/traversals/LCC18Traversal.h and
/repo/src/autopas/containers/cellTraversals/C18BasedTraversal.h.
-/
namespace Verif

/-- Loop iterations `(x, y, z)` whose entry ends up in `_cellOffsets[yIdx][xIdx]`: `LCC18Traversal::computeOffsets`,
LCC18Traversal.h:114-166. The code loops over all table entries inside; the model computes one table entry, visiting
the outer iterations in the same order. -/
def c18Indices (dims : V3 Nat) (cl : V3 Rat) (il : Rat) (yIdx xIdx : Nat) : List (Int × Int × Int) :=
  let ov := overlapOf il cl
  let yArray : Int := yIdx - ov.y
  let xArray : Int := xIdx - ov.x
  (forInt 0 ov.z).flatMap fun z =>
    (forInt (-ov.y) ov.y).flatMap fun y =>
      (forInt (-ov.x) ov.x).flatMap fun x =>
        if threeToOneDInt x y z dims.toInt < 0 then []
        else if ((yArray + y).natAbs : Int) ≤ ov.y ∧ ((xArray + x).natAbs : Int) ≤ ov.x ∧
            (gapVec cl x y z).dot (gapVec cl x y z) ≤ il * il then [(x, y, z)]
        else []

/-- `LCC18Traversal::getIndex`, LCC18Traversal.h:168-180. Natural-number subtraction is safe under `2 * ov ≤ dims`. -/
def c18GetIndex (pos dim ov : Nat) : Nat :=
  if pos < ov then pos
  else if pos < dim - ov then ov
  else pos + 2 * ov + 1 - dim

/-- `LCC18Traversal::processBaseCell`, LCC18Traversal.h:182-202. -/
def c18ProcessBaseCell (dims : V3 Nat) (cl : V3 Rat) (il : Rat) (base : V3 Nat) : List CellOp :=
  let ov := (overlapOf il cl).toNat
  let xArray := c18GetIndex base.x dims.x ov.x
  let yArray := c18GetIndex base.y dims.y ov.y
  (c18Indices dims cl il yArray xArray).map fun (x, y, z) =>
    baseCellOp (threeToOneD base dims) (threeToOneDInt x y z dims.toInt) (offsetSortDir cl x y z)

/-- `LCC18Traversal::traverseParticles`, LCC18Traversal.h:204-209: `c18Traversal</*allCells*/ false>`. -/
def lcC18 (dims : V3 Nat) (cl : V3 Rat) (il : Rat) : List (List (List CellOp)) :=
  (c18Bases false dims (overlapOf il cl).toNat).map fun colour => colour.map (c18ProcessBaseCell dims cl il)

end Verif
