import Verif.Spec.Geometry
import Verif.Spec.Iteration
import Verif.Model.LiveInfo
import Mathlib.Data.Finset.Prod
import Mathlib.Algebra.BigOperators.Group.Finset.Basic
import Mathlib.Analysis.Real.Sqrt
/-! Vocabulary for statistics about the distribution of particles: a grid of equal cells over a box. -/
namespace Verif.Spec

/-- The cells of a grid with `nx * ny * nz` cells. -/
def gridCells (nx ny nz : Nat) : Finset (Nat × Nat × Nat) := Finset.range nx ×ˢ Finset.range ny ×ˢ Finset.range nz

/-- A position lies in the cell with index `c` of a grid that starts at `lo` and whose cells have the side lengths `w`. -/
def InGridCell (lo w : V3 Rat) (c : Nat × Nat × Nat) (r : V3 Rat) : Prop :=
  InBox r ⟨lo.x + c.1 * w.x, lo.y + c.2.1 * w.y, lo.z + c.2.2 * w.z⟩
    ⟨lo.x + (c.1 + 1) * w.x, lo.y + (c.2.1 + 1) * w.y, lo.z + (c.2.2 + 1) * w.z⟩

instance (lo w : V3 Rat) (c : Nat × Nat × Nat) (r : V3 Rat) : Decidable (InGridCell lo w c r) := by unfold InGridCell; infer_instance

/-- The number of particles of `ps` in a cell. -/
def cellCount (ps : List Particle) (lo w : V3 Rat) (c : Nat × Nat × Nat) : Nat :=
  ps.countP fun p => decide (InGridCell lo w c p.pos)

/-- The mean of a quantity over the cells. -/
def meanOver (cells : Finset (Nat × Nat × Nat)) (f : Nat × Nat × Nat → Rat) : Rat := (∑ c ∈ cells, f c) / cells.card

/-- The variance of a quantity over the cells: the mean squared deviation from the mean. -/
def varianceOver (cells : Finset (Nat × Nat × Nat)) (f : Nat × Nat × Nat → Rat) : Rat :=
  meanOver cells fun c => (f c - meanOver cells f) ^ 2

/-- The standard deviation. -/
noncomputable def stdDevOver (cells : Finset (Nat × Nat × Nat)) (f : Nat × Nat × Nat → Rat) : ℝ :=
  Real.sqrt (varianceOver cells f : ℝ)

end Verif.Spec

namespace Verif
open Spec

/-- A container as AutoPas builds it: positive cutoff, a box of positive size. -/
structure LiveContainer.Ok (c : LiveContainer) : Prop where
  cutoff : 0 < c.cutoff
  x : c.boxMin.x < c.boxMax.x
  y : c.boxMin.y < c.boxMax.y
  z : c.boxMin.z < c.boxMax.z

/-- The particles in the box that are no dummies. -/
def LiveContainer.inside (c : LiveContainer) : List Particle :=
  c.particles.filter fun p => decide (p.own ≠ .dummy ∧ InBox p.pos c.boxMin c.boxMax)

/-- The particles outside of the box that are no dummies. -/
def LiveContainer.outside (c : LiveContainer) : List Particle :=
  c.particles.filter fun p => decide (p.own ≠ .dummy ∧ ¬ InBox p.pos c.boxMin c.boxMax)

/-- The owned particles. -/
def LiveContainer.owned (c : LiveContainer) : List Particle := c.particles.filter fun p => decide (p.own = .owned)

/-- The number of cells of side length cutoff per dimension (characterised by `C112_grid`). -/
def LiveContainer.dimsNat (c : LiveContainer) : V3 Nat := ⟨c.cellsPerDim.x.toNat, c.cellsPerDim.y.toNat, c.cellsPerDim.z.toNat⟩

end Verif
