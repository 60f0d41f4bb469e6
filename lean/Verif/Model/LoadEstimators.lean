import Verif.Model.Sliced
/-!
# Estimating the load of regions for balanced slicing

/repo/src/autopas/containers/LoadEstimators.h, the functions LinkedCells.h:110-125 and VerletListsCells.h:72-98 build from it, and the array of loads of
/repo/src/autopas/containers/cellTraversals/SlicedBalancedBasedTraversal.h:57-84. Sums are assumed to stay below 2^64.
-/
namespace Verif

/-- `for (x = lower; x <= upper; x++)`. -/
def forIncl (lower upper : Nat) : List Nat := (List.range (upper + 1 - lower)).map (lower + ·)

/-- The three loops of LoadEstimators.h:35-43, 100-107: the cell indices in the order they are visited. -/
def regionCells (dims lower upper : V3 Nat) : List Nat :=
  (forIncl lower.x upper.x).flatMap fun x => (forIncl lower.y upper.y).flatMap fun y => (forIncl lower.z upper.z).map fun z =>
    threeToOneD ⟨x, y, z⟩ dims

variable {P : Type}

/-- `squaredParticlesPerCell`, LoadEstimators.h:29-45. `none` is an access behind the cells. -/
def squaredParticlesPerCell (cells : List (List P)) (dims lower upper : V3 Nat) : Option Nat :=
  (regionCells dims lower upper).foldlM (fun sum i => (cells[i]?).map fun c => sum + c.length * c.length) 0

/-- `neighborListLengthImpl` for the lists of a cell, one for each particle, LoadEstimators.h:55-65. -/
def cellNeighborListLength (lists : List (P × List P)) : Nat := lists.foldl (fun load l => load + l.2.length) 0

/-- `neighborListLengthImpl` for pairwise lists: for each neighbour cell one list for each particle, LoadEstimators.h:75-87. -/
def cellPairwiseListLength (lists : List (List (P × List P))) : Nat :=
  lists.foldl (fun load l => l.foldl (fun load l => load + l.2.length) load) 0

/-- `neighborListLength`, LoadEstimators.h:97-111, with one of the two functions above. -/
def neighborListLength {L : Type} (cellLength : L → Nat) (lists : List L) (dims lower upper : V3 Nat) : Option Nat :=
  (regionCells dims lower upper).foldlM (fun sum i => (lists[i]?).map fun l => sum + cellLength l) 0

/-- `v[i] = x` of a `std::array<T, 3>`. -/
def V3.set {α : Type} (v : V3 α) (i : Nat) (x : α) : V3 α :=
  ⟨if i = 0 then x else v.x, if i = 1 then x else v.y, if i = 2 then x else v.z⟩

/-- The load of one layer across the longest axis, SlicedBalancedBasedTraversal.h:64-79. -/
def layerLoad (estimate : V3 Nat → V3 Nat → V3 Nat → Option Nat) (dims : V3 Nat) (x : Nat) : Option Nat :=
  estimate dims ((⟨0, 0, 0⟩ : V3 Nat).set (longestAxis dims) x) ((⟨dims.x - 1, dims.y - 1, dims.z - 1⟩ : V3 Nat).set (longestAxis dims) x)

/-- `loads` after the loop of SlicedBalancedBasedTraversal.h:81-83: the loads of the layers up to and with `x`. -/
def prefixLoad (estimate : V3 Nat → V3 Nat → V3 Nat → Option Nat) (dims : V3 Nat) : Nat → Option Nat
  | 0 => layerLoad estimate dims 0
  | x + 1 => (prefixLoad estimate dims x).bind fun a => (layerLoad estimate dims (x + 1)).map fun b => b + a

end Verif
