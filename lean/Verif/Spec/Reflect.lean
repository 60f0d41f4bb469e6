import Verif.Model.Reflect
import Verif.Spec.MDDomain
import Verif.Spec.LennardJones
/-! A wall that repels particles like a mirror image of the particle on the other side. -/
namespace Verif.Spec

/-- The mirror image in the plane where coordinate `d` is `b`. -/
def mirrored (p : V3 Rat) (d : Axis) (b : Rat) : V3 Rat := p.put d (2 * b - p.at d)

/-- The force of one wall: that of the mirror image, within the distance `reach` of the wall. -/
def wallForce (ε σ reach : Rat) (p : V3 Rat) (d : Axis) (b : Rat) : V3 Rat :=
  if |p.at d - b| < reach then ljF ε σ (p - mirrored p d b) else 0

/-- The forces of all reflective walls of the box. -/
def wallForces (D : RGD) (ε σ reach : Rat) (p : V3 Rat) : V3 Rat :=
  ([Axis.x, .y, .z].map fun d =>
    if D.boundary.at d = .reflective then wallForce ε σ reach p d (D.gMin.at d) + wallForce ε σ reach p d (D.gMax.at d) else 0).sum

/-- The parameters belong together: `σ` and `ε` of type `t`, and the skin covers all types. -/
structure ReflectionOk (R : Reflection) (σ ε : Nat → Rat) (types : List Nat) : Prop where
  root : 0 < R.root
  sigma : ∀ t, R.sigma t = σ t
  sigmaSquared : ∀ t, R.sigmaSquared t = σ t ^ 2
  epsilon24 : ∀ t, R.epsilon24 t = 24 * ε t
  positive : ∀ t ∈ types, 0 < σ t ∧ 0 < ε t
  maxSkin : R.maxSkin = maxReflectiveSkin R.root (types.map σ)

end Verif.Spec
