import Verif.Model.Basic
/-!
Model of /repo/src/autopas/utils/ThreeDimensionalMapping.h.
-/
namespace Verif

/-- `threeToOneD(index3d, dims)`, /repo/src/autopas/utils/ThreeDimensionalMapping.h:28-31 and :41-44,
for unsigned index types. -/
def threeToOneD (c dims : V3 Nat) : Nat := (c.z * dims.y + c.y) * dims.x + c.x

/-- The same template instantiated with signed types (`int`, `long`), used for cell offsets, e.g.
/repo/src/autopas/containers/linkedCells/traversals/LCC08CellHandlerUtility.cpp:89. -/
def threeToOneDInt (x y z : Int) (dims : V3 Int) : Int := (z * dims.y + y) * dims.x + x

/-- `oneToThreeD(ind, dims)`, /repo/src/autopas/utils/ThreeDimensionalMapping.h:54-61. Subtractions are on
unsigned values; they never underflow (see `C01_index_no_underflow`). Division by a zero dimension is
undefined in C++; the theorems assume an index below the number of cells, which excludes it. -/
def oneToThreeD (ind : Nat) (dims : V3 Nat) : V3 Nat :=
  let pz := ind / (dims.x * dims.y)
  let py := (ind - pz * dims.x * dims.y) / dims.x
  let px := ind - dims.x * (py + dims.y * pz)
  ⟨px, py, pz⟩

end Verif
