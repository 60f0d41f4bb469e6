import Verif.Model.OctreeLogger
/-! What vtk and JSON readers expect. Only the types of files and tokens are taken from the model. -/
namespace Verif.Spec.OctreeLogger

variable {K α : Type}

/-- Corner of a box: for each direction the lower or the upper bound. -/
def corner (lo hi : V3 K) (ux uy uz : Bool) : V3 K := ⟨if ux then hi.x else lo.x, if uy then hi.y else lo.y, if uz then hi.z else lo.z⟩

/-- Point `j` of a cell of type 12 (`VTK_HEXAHEDRON`): around the lower face, then around the upper face. -/
def hexahedronCorner (lo hi : V3 K) (j : Nat) : V3 K := corner lo hi (j % 4 == 1 || j % 4 == 2) (2 ≤ j % 4) (4 ≤ j)

/-- Point `j` of a cell of type 11 (`VTK_VOXEL`): x varies fastest, then y, then z. -/
def voxelCorner (lo hi : V3 K) (j : Nat) : V3 K := corner lo hi (j % 2 == 1) (j / 2 % 2 == 1) (4 ≤ j)

/-- The declared sizes are those of the lists. -/
def Consistent (f : VtkFile K) : Prop :=
  f.numPoints = f.points.length ∧ f.numCells = f.cells.length ∧ f.numTypes = f.types.length ∧ f.types.length = f.cells.length ∧
    f.cellListSize = (f.cells.map fun c => 1 + c.2.length).sum ∧ ∀ c ∈ f.cells, c.1 = c.2.length ∧ ∀ i ∈ c.2, i < f.points.length

/-- The points of a cell. -/
def cellPoints (f : VtkFile K) (i : Nat) : Option (List (V3 K)) := (f.cells[i]?).bind fun c => c.2.mapM fun j => f.points[j]?

/-- A JSON list: items separated by commas in brackets. -/
def listOf (items : List α) : List (JTok α) := [.open] ++ (items.map JTok.item).intersperse .comma ++ [.close]

end Verif.Spec.OctreeLogger
