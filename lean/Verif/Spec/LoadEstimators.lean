import Verif.Spec.Grid
import Verif.Model.LoadEstimators
/-!
# Loads of regions and balanced slices
-/
namespace Verif.Spec

/-- The cells of a block of `dims` cells with all coordinates between those of two corners, both included. -/
def cellsBetween (dims lower upper : V3 Nat) : List Nat :=
  (List.range (numCells dims)).filter fun i =>
    let c := oneToThreeD i dims
    decide (lower.x ≤ c.x ∧ c.x ≤ upper.x ∧ lower.y ≤ c.y ∧ c.y ≤ upper.y ∧ lower.z ≤ c.z ∧ c.z ≤ upper.z)

/-- The cells whose coordinate along an axis is at most `x`. -/
def cellsUpTo (dims : V3 Nat) (axis x : Nat) : List Nat :=
  (List.range (numCells dims)).filter fun i => decide ((oneToThreeD i dims).get axis ≤ x)

/-- The load of the layers before layer `a`, from the sums `loads` of the loads of the layers up to each one. -/
def loadBefore (loads : Nat → Nat) (a : Nat) : Nat := if a = 0 then 0 else loads (a - 1)

/-- Slice `s` of the slices `thick` for `threads` threads takes its share. The share is the load that is left, divided by the number of threads that are left.
Not more: the slice has the minimal thickness `m`, or without its last layer its load is below the share.
Not less: its load reaches the share, or with one more layer it would be farther from it, or at most one layer is left. -/
def TakesItsShare (loads : Nat → Nat) (n m threads : Nat) (thick : List Nat) (s : Nat) : Prop :=
  let start := (thick.take s).sum
  let t := thick.getD s 0
  let share := (loads (n - 1) - loadBefore loads start) / (threads - s)
  let load := fun t => loadBefore loads (start + t) - loadBefore loads start
  (t = m ∨ (m < t ∧ load (t - 1) < share)) ∧
  (share ≤ load t ∨ (share - load t < load (t + 1) - share) ∨ n ≤ start + t + 1)

end Verif.Spec
