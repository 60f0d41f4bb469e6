import Verif.Model.RotationalIntegrator
import Verif.Spec.Rotation
/-! Rotational motion of a rigid molecule. -/
namespace Verif.Spec
variable {K : Type} [Field K] [LinearOrder K]

/-- `sqrt` is the square root. -/
def IsSqrt (sqrt : K → K) : Prop := ∀ x, 0 ≤ x → 0 ≤ sqrt x ∧ sqrt x ^ 2 = x

/-- The angular momentum in space: moments of inertia are those along the axes of the molecule. -/
def angularMomentum (inertia : V3 K) (m : Rotor K) : V3 K :=
  rotatePosition m.q (inertia * rotatePositionBackwards m.q m.angVel)

/-- A step of the quaternion update ends, with finite values. -/
def StepEnds (c : RotInt K) (m : Rotor K) : Prop := ∃ n, ∀ fuel, n ≤ fuel → ∃ m', c.updateQuaternion fuel m = .ok m'

/-- A step of the quaternion update does not end. -/
def StepHangs (c : RotInt K) (m : Rotor K) : Prop := ∀ fuel, c.updateQuaternion fuel m = .diverges

end Verif.Spec
