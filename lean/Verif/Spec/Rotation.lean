import Verif.Model.Quaternion
import Verif.Spec.LennardJones
/-! Rotations and mirror images of vectors. -/
namespace Verif.Spec
variable {K : Type} [Field K]

/-- A rotation about the origin: it is linear, keeps lengths and angles, and keeps right-handed systems right-handed. -/
structure IsRotation (R : V3 K → V3 K) : Prop where
  add : ∀ a b, R (a + b) = R a + R b
  scale : ∀ a s, R (a.scale s) = (R a).scale s
  inner : ∀ a b, (R a).inner (R b) = a.inner b
  cross : ∀ a b, R (a.cross b) = (R a).cross (R b)

/-- The quaternion has length one. -/
def IsUnit4 (q : Q4 K) : Prop := q.w ^ 2 + q.x ^ 2 + q.y ^ 2 + q.z ^ 2 = 1

/-- The mirror image in the plane through the origin perpendicular to axis 0, 1 or 2. -/
def mirrorImage (d : Fin 3) (v : V3 K) : V3 K :=
  match d with
  | 0 => ⟨-v.x, v.y, v.z⟩
  | 1 => ⟨v.x, -v.y, v.z⟩
  | 2 => ⟨v.x, v.y, -v.z⟩

end Verif.Spec
