import Verif.Model.Basic
import Mathlib.Algebra.Order.Field.Rat
import Mathlib.Tactic.NormNum
/-! Geometric vocabulary, independent of cells. -/
namespace Verif.Spec

/-- The half-open box `[lo, hi)` (this is how AutoPas defines "inside the box"). -/
def InBox (p lo hi : V3 Rat) : Prop :=
  (lo.x ≤ p.x ∧ p.x < hi.x) ∧ (lo.y ≤ p.y ∧ p.y < hi.y) ∧ (lo.z ≤ p.z ∧ p.z < hi.z)

/-- Squared Euclidean distance. -/
def distSq (p q : V3 Rat) : Rat := (p.x - q.x) ^ 2 + (p.y - q.y) ^ 2 + (p.z - q.z) ^ 2

/-- A valid simulation box: at least one interaction length wide in every axis (AutoPas refuses smaller boxes,
/repo/src/autopas/LogicHandler.h:970-981), with positive interaction length and cell size factor. -/
structure GoodBox (bMin bMax : V3 Rat) (il csf : Rat) : Prop where
  ilPos : 0 < il
  csfPos : 0 < csf
  wx : il ≤ bMax.x - bMin.x
  wy : il ≤ bMax.y - bMin.y
  wz : il ≤ bMax.z - bMin.z

/-- What is assumed about floating point rounding: it is monotone, keeps 0, and has relative error at most `2^-53`
(IEEE double precision, round to nearest, without overflow or underflow). -/
structure Rounding (rnd : Rat → Rat) : Prop where
  mono : ∀ a b, a ≤ b → rnd a ≤ rnd b
  zero : rnd 0 = 0
  err : ∀ a, |rnd a - a| ≤ 1 / 2 ^ 53 * |a|

theorem Rounding.exact : Rounding id := ⟨fun _ _ h => h, rfl, fun a => by simp⟩

end Verif.Spec
