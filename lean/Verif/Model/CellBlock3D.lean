import Verif.Model.Mapping
import Mathlib.Data.Rat.Floor
/-!
Model of /repo/src/autopas/containers/CellBlock3D.h.

The code treats the three axes independently (`for d < 3`), so the model has one record per axis. Every arithmetic
operation on `double`s is written with an explicit rounding function `rnd` (the exact result, rounded); taking
`rnd = id` gives exact arithmetic. `floor`, `ceil`, comparisons, min and max are exact on doubles.
-/
namespace Verif

/-- One axis of the members of `CellBlock3D`, CellBlock3D.h:293-311. -/
structure AxisBlock where
  boxMin : Rat
  boxMax : Rat
  /-- `_cellsPerInteractionLength` -/
  cpil : Nat
  /-- `_cellsPerDimensionWithHalo[d]` -/
  dim : Nat
  cellLength : Rat
  cellLengthReciprocal : Rat
  haloBoxMin : Rat
  haloBoxMax : Rat

/-- `_cellsPerInteractionLength` in `rebuild`, CellBlock3D.h:370-374. -/
def cellsPerInteractionLength (rnd : Rat → Rat) (csf : Rat) : Nat :=
  if csf ≥ 1 then 1 else ⌈rnd (1 / csf)⌉.toNat

/-- `cellsPerDim` in `rebuild`, CellBlock3D.h:378-382. -/
def cellsPerDim (rnd : Rat → Rat) (bMin bMax il csf : Rat) : Nat :=
  max ⌊rnd (rnd (bMax - bMin) / rnd (il * csf))⌋.toNat 1

/-- One iteration of the loop over the dimensions in `rebuild`, CellBlock3D.h:377-394. -/
def AxisBlock.rebuild (rnd : Rat → Rat) (bMin bMax il csf : Rat) : AxisBlock :=
  let cpil := cellsPerInteractionLength rnd csf
  let boxLength := rnd (bMax - bMin)
  let cpd := cellsPerDim rnd bMin bMax il csf
  let cellLength := rnd (boxLength / cpd)
  { boxMin := bMin, boxMax := bMax, cpil := cpil
    dim := cpd + 2 * cpil
    cellLength := cellLength
    cellLengthReciprocal := rnd (cpd / boxLength)
    haloBoxMin := rnd (bMin - rnd (cpil * cellLength))
    haloBoxMax := rnd (bMax + rnd (cpil * cellLength)) }

/-- `CellBlock3D`. -/
structure CellBlock where
  x : AxisBlock
  y : AxisBlock
  z : AxisBlock

/-- `CellBlock3D::rebuild`, CellBlock3D.h:359-394. -/
def CellBlock.rebuild (rnd : Rat → Rat) (bMin bMax : V3 Rat) (il csf : Rat) : CellBlock :=
  ⟨.rebuild rnd bMin.x bMax.x il csf, .rebuild rnd bMin.y bMax.y il csf, .rebuild rnd bMin.z bMax.z il csf⟩

/-- `_cellsPerDimensionWithHalo` -/
def CellBlock.dims (b : CellBlock) : V3 Nat := ⟨b.x.dim, b.y.dim, b.z.dim⟩

/-- `_cellLength` -/
def CellBlock.cellLength (b : CellBlock) : V3 Rat := ⟨b.x.cellLength, b.y.cellLength, b.z.cellLength⟩

/-- Loop body of `get3DIndexOfPosition`, CellBlock3D.h:325-346. -/
def AxisBlock.indexOfPosition (rnd : Rat → Rat) (a : AxisBlock) (pos : Rat) : Nat :=
  let value : Int := ⌊rnd (rnd (pos - a.boxMin) * a.cellLengthReciprocal)⌋ + a.cpil
  let nonNegativeValue := (max value 0).toNat
  let nonLargerValue := min nonNegativeValue (a.dim - 1)
  if pos ≥ a.boxMax then max nonLargerValue (a.dim - a.cpil)
  else if pos < a.boxMin ∧ nonLargerValue = a.cpil then nonLargerValue - 1
  else if pos < a.boxMax ∧ nonLargerValue = a.dim - a.cpil then nonLargerValue - 1
  else nonLargerValue

/-- `get3DIndexOfPosition`, CellBlock3D.h:320-349. -/
def CellBlock.indexOfPosition (rnd : Rat → Rat) (b : CellBlock) (pos : V3 Rat) : V3 Nat :=
  ⟨b.x.indexOfPosition rnd pos.x, b.y.indexOfPosition rnd pos.y, b.z.indexOfPosition rnd pos.z⟩

/-- `_firstOwnedCellIndex`, CellBlock3D.h:401-402. -/
def CellBlock.firstOwned (b : CellBlock) : Nat := b.x.dim * b.y.dim * b.x.cpil + b.x.dim * b.x.cpil + b.x.cpil

/-- `_lastOwnedCellIndex`, CellBlock3D.h:403 (with `numCells` from :393). -/
def CellBlock.lastOwned (b : CellBlock) : Nat := b.x.dim * b.y.dim * b.z.dim - 1 - b.firstOwned

/-- `cellCanContainHaloParticles`, CellBlock3D.h:68-82. -/
def CellBlock.cellCanContainHalo (b : CellBlock) (index1d : Nat) : Bool :=
  if index1d < b.firstOwned ∨ index1d > b.lastOwned then true
  else
    let i := oneToThreeD index1d b.dims
    let h := b.x.cpil
    (i.x < h || i.x ≥ b.x.dim - h) || (i.y < h || i.y ≥ b.y.dim - h) || (i.z < h || i.z ≥ b.z.dim - h)

/-- Loop body of `getCellBoundingBox`, CellBlock3D.h:453-475. -/
def AxisBlock.boundingBox (rnd : Rat → Rat) (a : AxisBlock) (i : Nat) : Rat × Rat :=
  let boxmin := rnd (rnd (i * a.cellLength) + a.haloBoxMin)
  let boxmin := if i = 0 then a.haloBoxMin else if i = a.cpil then a.boxMin else boxmin
  let boxmax := rnd (boxmin + a.cellLength)
  if i = a.dim - a.cpil - 1 then (boxmin, a.boxMax)
  else if i = a.dim - 1 then (rnd (a.haloBoxMax - a.cellLength), a.haloBoxMax)
  else (boxmin, boxmax)

/-- The halo slices of one axis: `std::iota` ranges `0 .. cpil-1` and `dim-cpil .. dim-1`, CellBlock3D.h:515-517, :520. -/
def haloSlices (cpil dim : Nat) : List Nat :=
  List.range cpil ++ (List.range cpil).map (fun k => dim - cpil + k)

/-- Indices visited by `clearHaloCells`, CellBlock3D.h:514-549. -/
def clearHaloIndices (dims : V3 Nat) (cpil : Nat) : List Nat :=
  ((haloSlices cpil dims.x).flatMap fun i => (forUp 0 dims.y 1).flatMap fun j => (forUp 0 dims.z 1).map fun k =>
      threeToOneD ⟨i, j, k⟩ dims) ++
  ((forUp 1 (dims.x - 1) 1).flatMap fun i => (haloSlices cpil dims.y).flatMap fun j => (forUp 0 dims.z 1).map fun k =>
      threeToOneD ⟨i, j, k⟩ dims) ++
  ((forUp 1 (dims.x - 1) 1).flatMap fun i => (forUp 1 (dims.y - 1) 1).flatMap fun j => (haloSlices cpil dims.z).map fun k =>
      threeToOneD ⟨i, j, k⟩ dims)

/-- `clearHaloCells` as an update of the cell contents: `(*_cells)[index].clear()` for every visited index. -/
def clearHaloCells {P : Type} (dims : V3 Nat) (cpil : Nat) (cells : Nat → List P) : Nat → List P :=
  (clearHaloIndices dims cpil).foldl (fun cs index => fun i => if i = index then [] else cs i) cells

end Verif
