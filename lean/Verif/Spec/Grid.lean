import Verif.Model.Basic
/-!
Specification vocabulary for cell grids: which coordinates are cells of the grid and how many there are.
Independent of the code's index arithmetic.
-/
namespace Verif.Spec

/-- `c` is a cell coordinate of a grid with `dims` cells per axis. -/
def InGrid (c dims : V3 Nat) : Prop := c.x < dims.x ∧ c.y < dims.y ∧ c.z < dims.z

/-- Number of cells of the grid, i.e. the size of the cell array. -/
def numCells (dims : V3 Nat) : Nat := dims.x * dims.y * dims.z

instance (c dims : V3 Nat) : Decidable (InGrid c dims) := by unfold InGrid; infer_instance

end Verif.Spec
