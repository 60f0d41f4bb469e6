import Mathlib.Data.Rat.Floor
import Verif.Model.Basic
/-! The number of halo particles for a uniform density. Independent of the model. -/
namespace Verif.Spec.NumParticlesEstimator

/-- Volume of a box. -/
def volume (lo hi : V3 Rat) : Rat := (hi.x - lo.x) * (hi.y - lo.y) * (hi.z - lo.z)

/-- The box with a halo of the given width on all sides. -/
def grownMin (lo : V3 Rat) (w : Rat) : V3 Rat := ⟨lo.x - w, lo.y - w, lo.z - w⟩

/-- Its upper corner. -/
def grownMax (hi : V3 Rat) (w : Rat) : V3 Rat := ⟨hi.x + w, hi.y + w, hi.z + w⟩

/-- The number of particles in the halo, the part of the grown box outside of the box, if it has the density of the box. -/
def expectedHalos (n : Nat) (lo hi : V3 Rat) (w : Rat) : Rat :=
  n / volume lo hi * (volume (grownMin lo w) (grownMax hi w) - volume lo hi)

end Verif.Spec.NumParticlesEstimator
