import Verif.Model.LCC08
/-!
Model of /repo/src/autopas/containers/linkedCells/traversals/LCC04Traversal.h and LCC04HCPTraversal.h. Both hand
base cells to the cell handler of `lc_c08`. A traversal is a list of colours, a colour a list of packs (the unit of
parallel work), a pack the list of base cells it processes.
-/
namespace Verif

/-- The values of `i` in `for (long i = start; i < stop; i += step)` with `step > 0`. -/
def forIntStep (start stop : Int) (step : Nat) : List Int :=
  (List.range ((stop - start + (step - 1)) / step).toNat).map (fun (k : Nat) => start + step * k)

/-- Signed 3D index as unsigned one; only used on non-negative indices. -/
def V3.natOf (x y z : Int) : V3 Nat := ⟨x.toNat, y.toNat, z.toNat⟩

/-- `computeOffsets32Pack`, LCC04Traversal.h:97-133. -/
def c04Offsets32 : List (Int × Int × Int) :=
  [(1, 1, 0), (1, 2, 0), (2, 1, 0), (2, 2, 0)] ++
  ((forInt 1 2).flatMap fun z => (forInt 0 3).flatMap fun y => (forInt 0 3).flatMap fun x =>
    if (x = 0 ∧ y = 0) ∨ (x = 3 ∧ y = 0) ∨ (x = 0 ∧ y = 3) ∨ (x = 3 ∧ y = 3) then [] else [(x, y, z)]) ++
  [(1, 1, 3), (1, 2, 3), (2, 1, 3), (2, 2, 3)]

/-- `processBasePack32`, LCC04Traversal.h:145-164: the base cells handed to the cell handler; `fin` is `_end`
(:49-50, cells per dimension minus 1). -/
def c04Pack32 (fin : V3 Int) (x y z : Int) : List (V3 Nat) :=
  c04Offsets32.flatMap fun o =>
    let ix := x + o.1
    let iy := y + o.2.1
    let iz := z + o.2.2
    if (0 ≤ ix ∧ ix < fin.x) ∧ (0 ≤ iy ∧ iy < fin.y) ∧ (0 ≤ iz ∧ iz < fin.z) then [V3.natOf ix iy iz] else []

/-- `parity`, LCC04Traversal.h:81. -/
def c04Parity (x y z : Int) : Int := (x + y + z + 24).tmod 8

/-- `startOfThisColor`, LCC04Traversal.h:195-206. -/
def c04Start (color : Nat) : Int := if color % 2 = 0 then -2 else 0

/-- `correctParity`, LCC04Traversal.h:209-212. -/
def c04CorrectParity (color : Nat) : Int :=
  let start := c04Start color
  if color ≥ 2 then c04Parity start start start + 4 else c04Parity start start start

/-- `traverseSingleColor`, LCC04Traversal.h:188-236: positions of the packs of one colour. -/
def c04PackPositions (fin : V3 Int) (color : Nat) : List (Int × Int × Int) :=
  let start := c04Start color
  (forIntStep start fin.z 4).flatMap fun z => (forIntStep start fin.y 4).flatMap fun y =>
    (forIntStep start fin.x 4).flatMap fun x => if c04Parity x y z ≠ c04CorrectParity color then [] else [(x, y, z)]

/-- `_end`, LCC04Traversal.h:49-50, LCC04HCPTraversal.h:49-50. -/
def c04End (dims : V3 Nat) : V3 Int := ⟨dims.x - 1, dims.y - 1, dims.z - 1⟩

/-- `LCC04Traversal::traverseParticles`, LCC04Traversal.h:174-185: colours, packs, base cells. -/
def c04Packs (dims : V3 Nat) : List (List (List (V3 Nat))) :=
  (List.range 4).map fun color => (c04PackPositions (c04End dims) color).map fun p => c04Pack32 (c04End dims) p.1 p.2.1 p.2.2

/-- Cell functor calls of a traversal that hands packs of base cells to `LCC08CellHandler`. -/
def packOps (dims : V3 Nat) (cl : V3 Rat) (il : Rat) (packs : List (List (List (V3 Nat)))) : List (List (List CellOp)) :=
  packs.map fun colour => colour.map fun pack => pack.flatMap (c08ProcessBaseCell dims cl il)

/-- `lc_c04`. -/
def lcC04 (dims : V3 Nat) (cl : V3 Rat) (il : Rat) : List (List (List CellOp)) := packOps dims cl il (c04Packs dims)

/-- `processBasePack6`, LCC04HCPTraversal.h:80-106. -/
def hcpPack6 (fin ov : V3 Int) (bx bY bz : Int) : List (V3 Nat) :=
  (forInt 0 2).flatMap fun z => (forInt 0 1).flatMap fun x =>
    let ix := bx + x
    let iy := bY
    let iz := bz + z
    if (0 ≤ ix ∧ ix ≤ fin.x - ov.x) ∧ (0 ≤ iy ∧ iy ≤ fin.y - ov.y) ∧ (0 ≤ iz ∧ iz ≤ fin.z - ov.z) then [V3.natOf ix iy iz] else []

/-- `startOfThisColor`, LCC04HCPTraversal.h:140-155. -/
def hcpStart (color : Nat) : V3 Int :=
  if color = 0 then ⟨0, 0, 0⟩ else if color = 1 then ⟨-4, 0, 1⟩ else if color = 2 then ⟨-4, 0, -2⟩ else ⟨-2, 0, -1⟩

/-- `traverseSingleColor`, LCC04HCPTraversal.h:132-198: positions of the packs of one colour. -/
def hcpPackPositions (fin : V3 Int) (color : Nat) : List (Int × Int × Int) :=
  let s := hcpStart color
  (forIntStep s.z fin.z 4).flatMap fun z => (forIntStep s.y fin.y 1).flatMap fun y =>
    (forIntStep s.x (fin.x + 4) 6).map fun x =>
      let x1 := if ((z - s.z).tmod 12).tdiv 4 = 1 then x - 4 else if ((z - s.z).tmod 12).tdiv 4 = 2 then x - 2 else x
      let x2 := if (y - s.y).tmod 2 ≠ 0 then x1 + 3 else x1
      (x2, y, z)

/-- `LCC04HCPTraversal::traverseParticles`, LCC04HCPTraversal.h:109-120. -/
def hcpPacks (dims : V3 Nat) (ov : V3 Int) : List (List (List (V3 Nat))) :=
  (List.range 4).map fun color => (hcpPackPositions (c04End dims) color).map fun p => hcpPack6 (c04End dims) ov p.1 p.2.1 p.2.2

/-- `lc_c04_HCP`. -/
def lcC04HCP (dims : V3 Nat) (cl : V3 Rat) (il : Rat) : List (List (List CellOp)) :=
  packOps dims cl il (hcpPacks dims (overlapOf il cl))

end Verif
