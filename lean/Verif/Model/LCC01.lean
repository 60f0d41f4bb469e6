import Verif.Model.CellOp
/-!
Model of the pairwise `lc_c01` traversal (without combined SoA buffers):
/repo/src/autopas/containers/linkedCells/traversals/LCC01Traversal.h and
/repo/src/autopas/containers/cellTraversals/C01BasedTraversal.h.
-/
namespace Verif

/-- `_cellOffsets`: a vector of slices (slice `k` holds offsets with x-component `k - overlap.x`). An entry of the
real table is the pair (flat offset, sorting direction), both functions of `(ix, y, z)`; the model stores `(ix, y, z)`. -/
abbrev C01Slices := Nat → List (Int × Int × Int)

/-- Inner loop over `ix`, LCC01Traversal.h:271-294: entry `(ix, y, z)` goes to slice `ix + overlap[0]`, to the front
if it is the centre of the slice. -/
def c01AddIx (ovx y z : Int) (s : C01Slices) (ix : Int) : C01Slices :=
  let index := (ix + ovx).toNat
  fun k => if k = index then (if y = 0 ∧ z = 0 then (ix, y, z) :: s k else s k ++ [(ix, y, z)]) else s k

/-- Body of the loop nest of `computePairwiseOffsets` for one `(x, y, z)`, LCC01Traversal.h:256-295: distance check,
`containCurrentOffset` check (comparison of flat offsets), insertion for `ix = x .. |x|`. -/
def c01Step (dims : V3 Nat) (cl : V3 Rat) (il : Rat) (s : C01Slices) (t : Int × Int × Int) : C01Slices :=
  let (x, y, z) := t
  let ovx := (overlapOf il cl).x
  if (gapVec cl x y z).dot (gapVec cl x y z) ≤ il * il then
    let currentOffset := threeToOneDInt x y z dims.toInt
    if (s (x + ovx).toNat).any (fun e => threeToOneDInt e.1 e.2.1 e.2.2 dims.toInt == currentOffset) then s
    else (forInt x x.natAbs).foldl (c01AddIx ovx y z) s
  else s

/-- The iterations of the loop nest in order, LCC01Traversal.h:253-255. -/
def c01Loop (ov : V3 Int) : List (Int × Int × Int) :=
  (forInt (-ov.x) 0).flatMap fun x => (forInt (-ov.y) ov.y).flatMap fun y => (forInt (-ov.z) ov.z).map fun z => (x, y, z)

/-- `computePairwiseOffsets`, LCC01Traversal.h:247-299. -/
def c01Slices (dims : V3 Nat) (cl : V3 Rat) (il : Rat) : C01Slices :=
  (c01Loop (overlapOf il cl)).foldl (c01Step dims cl il) (fun _ => [])

/-- All entries of all slices in processing order (`for (slice : _cellOffsets) for (offset : slice)`),
LCC01Traversal.h:463-464; there are `2 * overlap[0] + 1` slices (:249). -/
def c01Entries (dims : V3 Nat) (cl : V3 Rat) (il : Rat) : List (Int × Int × Int) :=
  (List.range (2 * (overlapOf il cl).x.toNat + 1)).flatMap (c01Slices dims cl il)

/-- `processBaseCellPairwise` without combined SoA, LCC01Traversal.h:384-390 and :462-475. -/
def c01ProcessBaseCell (dims : V3 Nat) (cl : V3 Rat) (il : Rat) (base : V3 Nat) : List CellOp :=
  (c01Entries dims cl il).map fun (x, y, z) =>
    baseCellOp (threeToOneD base dims) (threeToOneDInt x y z dims.toInt) (offsetSortDir cl x y z)

/-- `traverseParticles`, LCC01Traversal.h:517-534. -/
def lcC01 (dims : V3 Nat) (cl : V3 Rat) (il : Rat) : List (List (List CellOp)) :=
  (c01Bases dims (overlapOf il cl).toNat).map fun colour => colour.map (c01ProcessBaseCell dims cl il)

end Verif
