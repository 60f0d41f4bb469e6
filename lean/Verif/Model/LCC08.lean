import Verif.Model.CellOp
/-!
Model of the `lc_c08` traversal:
/repo/src/autopas/containers/linkedCells/traversals/LCC08CellHandlerUtility.{h,cpp},
LCC08CellHandler.h and LCC08Traversal.h.
-/
namespace Verif

/-- `C08CellDirection`, LCC08CellHandlerUtility.h (enum listed in ALL_DIRECTIONS, :91-93). -/
inductive C08Dir where
  | frontLeft | backLeft | frontRight | backRight
deriving DecidableEq

namespace C08Dir
/-- `ALL_DIRECTIONS`, LCC08CellHandlerUtility.h:91-93. -/
def all : List C08Dir := [frontLeft, backLeft, frontRight, backRight]

/-- `toMaskXY`, LCC08CellHandlerUtility.cpp:13-25. -/
def maskXY : C08Dir → Int × Int
  | frontLeft => (0, 0)
  | backLeft => (0, 1)
  | frontRight => (1, 0)
  | backRight => (1, 1)

/-- `includeCellPair`, LCC08CellHandlerUtility.cpp:27-40. -/
def includeCellPair (d : C08Dir) (ov : V3 Int) (x y z : Int) : Bool :=
  match d with
  | backLeft => y ≠ ov.y && z ≠ 0
  | frontRight => x ≠ ov.x && (y ≠ 0 || z ≠ 0)
  | backRight => y ≠ ov.y && x ≠ ov.x && z ≠ 0
  | frontLeft => true
end C08Dir

/-- `distVec`, LCC08CellHandlerUtility.cpp:92 and :107-111. -/
def c08DistVec (ov : V3 Int) (cl : V3 Rat) (x y z : Int) (d : C08Dir) : V3 Rat :=
  let (maskX, maskY) := d.maskXY
  ⟨max 0 ((((ov.x - x) * maskX + x * (1 - maskX) : Int) : Rat) - 1) * cl.x,
   max 0 ((((ov.y - y) * maskY + y * (1 - maskY) : Int) : Rat) - 1) * cl.y,
   max 0 ((z : Rat) - 1) * cl.z⟩

/-- The iterations of the loop nest of `computePairwiseCellOffsetsC08` that reach `emplace_back`:
LCC08CellHandlerUtility.cpp:85-115 (both exclusion criteria). -/
def c08Indices (cl : V3 Rat) (il : Rat) : List (Int × Int × Int × C08Dir) :=
  let ov := overlapOf il cl
  (forInt 0 ov.x).flatMap fun x =>
    (forInt 0 ov.y).flatMap fun y =>
      (forInt 0 ov.z).flatMap fun z =>
        C08Dir.all.flatMap fun d =>
          if d.includeCellPair ov x y z then
            if (c08DistVec ov cl x y z d).dot (c08DistVec ov cl x y z d) ≤ il * il then [(x, y, z, d)] else []
          else []

/-- `computeSortingDirection` without the normalisation, LCC08CellHandlerUtility.cpp:42-54. -/
def c08SortDir (ov : V3 Int) (cl : V3 Rat) (x y z : Int) (d : C08Dir) : V3 Rat :=
  let (maskX, maskY) := d.maskXY
  let s : V3 Rat := ⟨x - maskX * ov.x, y - maskY * ov.y, 0 - z⟩
  let s := if s.x = 0 ∧ s.y = 0 ∧ s.z = 0 then ⟨1, 1, 1⟩ else s
  ⟨s.x * cl.x, s.y * cl.y, s.z * cl.z⟩

/-- One result entry `(offset2, offset1, sortDir)`, LCC08CellHandlerUtility.cpp:89, :103, :121-134. -/
def c08Offset (dims : V3 Nat) (cl : V3 Rat) (il : Rat) (t : Int × Int × Int × C08Dir) : Int × Int × V3 Rat :=
  let (x, y, z, d) := t
  let ov := overlapOf il cl
  let (maskX, maskY) := d.maskXY
  let offset1 := threeToOneDInt x y 0 dims.toInt
  let offset2 := threeToOneDInt (maskX * ov.x) (maskY * ov.y) z dims.toInt
  (offset2, offset1, c08SortDir ov cl x y z d)

/-- `computePairwiseCellOffsetsC08<c08CellPairsSorting>`, LCC08CellHandlerUtility.cpp:59-149. -/
def c08Offsets (dims : V3 Nat) (cl : V3 Rat) (il : Rat) : List (Int × Int × V3 Rat) :=
  (c08Indices cl il).map (c08Offset dims cl il)

/-- Body of the loop of `LCC08CellHandler::processBaseCell`, LCC08CellHandler.h:113-126. -/
def cellOpOf (baseIndex : Int) (o : Int × Int × V3 Rat) : CellOp :=
  let cellIndex1 := baseIndex + o.1
  let cellIndex2 := baseIndex + o.2.1
  if cellIndex1 = cellIndex2 then .self cellIndex1 else .pair cellIndex1 cellIndex2 o.2.2

/-- `LCC08CellHandler::processBaseCell`, LCC08CellHandler.h:110-126. -/
def c08ProcessBaseCell (dims : V3 Nat) (cl : V3 Rat) (il : Rat) (base : V3 Nat) : List CellOp :=
  (c08Offsets dims cl il).map (cellOpOf (threeToOneD base dims))

/-- `LCC08Traversal::traverseParticles`, LCC08Traversal.h:68-75: colours, base cells, cell functor calls. -/
def lcC08 (dims : V3 Nat) (cl : V3 Rat) (il : Rat) : List (List (List CellOp)) :=
  (c08Bases dims (overlapOf il cl).toNat).map fun colour => colour.map (c08ProcessBaseCell dims cl il)

end Verif
