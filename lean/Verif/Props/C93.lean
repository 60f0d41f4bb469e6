import Verif.Spec.Rotation
import Mathlib.Tactic.LinearCombination
import Mathlib.Tactic.Ring
import Mathlib.Tactic.NormNum
/-!
# C93 — quaternions describe rotations

A unit quaternion turns vectors by a rotation; the product of quaternions is the composition of rotations, the conjugate the inverse, the mirrored quaternion
the rotation seen in a mirror. The angle and the axis are those of the quaternion: the axis stays, and a vector perpendicular to the axis is
turned with the half angle's cosine `q.w` and sine `(q.x, q.y, q.z)`.
-/
namespace Verif
open Spec
variable {K : Type} [Field K]

theorem v3_ext {a b : V3 K} (h1 : a.x = b.x) (h2 : a.y = b.y) (h3 : a.z = b.z) : a = b := by
  cases a; cases b; simp_all

theorem q4_ext {a b : Q4 K} (h0 : a.w = b.w) (h1 : a.x = b.x) (h2 : a.y = b.y) (h3 : a.z = b.z) : a = b := by
  cases a; cases b; simp_all

theorem v3_add_def (a b : V3 K) : a + b = ⟨a.x + b.x, a.y + b.y, a.z + b.z⟩ := rfl
theorem v3_sub_def (a b : V3 K) : a - b = ⟨a.x - b.x, a.y - b.y, a.z - b.z⟩ := rfl

/-- A unit quaternion rotates. -/
theorem C93_rotates {q : Q4 K} (hq : IsUnit4 q) : IsRotation (rotatePosition q) := by
  unfold IsUnit4 at hq
  refine ⟨fun a b => ?_, fun a s => ?_, fun a b => ?_, fun a b => ?_⟩
  · apply v3_ext <;> simp only [rotatePosition, v3_add_def] <;> ring
  · apply v3_ext <;> simp only [rotatePosition, V3.scale] <;> ring
  · simp only [rotatePosition, Q4.matrix, V3.inner]
    linear_combination (a.x * b.x + a.y * b.y + a.z * b.z) * (q.w ^ 2 + q.x ^ 2 + q.y ^ 2 + q.z ^ 2 + 1) * hq
  · apply v3_ext <;> simp only [rotatePosition, Q4.matrix, V3.cross]
    · linear_combination -((q.w * q.w + q.x * q.x - q.y * q.y - q.z * q.z) * (a.y * b.z - a.z * b.y) + 2 * (q.x * q.y - q.w * q.z) * (a.z * b.x - a.x * b.z) +
        2 * (q.x * q.z + q.w * q.y) * (a.x * b.y - a.y * b.x)) * hq
    · linear_combination -(2 * (q.x * q.y + q.w * q.z) * (a.y * b.z - a.z * b.y) + (q.w * q.w - q.x * q.x + q.y * q.y - q.z * q.z) * (a.z * b.x - a.x * b.z) +
        2 * (q.y * q.z - q.w * q.x) * (a.x * b.y - a.y * b.x)) * hq
    · linear_combination -(2 * (q.x * q.z - q.w * q.y) * (a.y * b.z - a.z * b.y) + 2 * (q.y * q.z + q.w * q.x) * (a.z * b.x - a.x * b.z) +
        (q.w * q.w - q.x * q.x - q.y * q.y + q.z * q.z) * (a.x * b.y - a.y * b.x)) * hq

/-- Rotating many positions is rotating each. -/
theorem C93_many (q : Q4 K) (ps : List (V3 K)) : rotateVectorOfPositions q ps = ps.map (rotatePosition q) := rfl

/-- Backwards is the inverse. -/
theorem C93_backwards {q : Q4 K} (hq : IsUnit4 q) (v : V3 K) : rotatePositionBackwards q (rotatePosition q v) = v ∧
    rotatePosition q (rotatePositionBackwards q v) = v := by
  unfold IsUnit4 at hq
  constructor <;> apply v3_ext <;> simp only [rotatePosition, rotatePositionBackwards, Q4.matrix]
  · linear_combination v.x * (q.w ^ 2 + q.x ^ 2 + q.y ^ 2 + q.z ^ 2 + 1) * hq
  · linear_combination v.y * (q.w ^ 2 + q.x ^ 2 + q.y ^ 2 + q.z ^ 2 + 1) * hq
  · linear_combination v.z * (q.w ^ 2 + q.x ^ 2 + q.y ^ 2 + q.z ^ 2 + 1) * hq
  · linear_combination v.x * (q.w ^ 2 + q.x ^ 2 + q.y ^ 2 + q.z ^ 2 + 1) * hq
  · linear_combination v.y * (q.w ^ 2 + q.x ^ 2 + q.y ^ 2 + q.z ^ 2 + 1) * hq
  · linear_combination v.z * (q.w ^ 2 + q.x ^ 2 + q.y ^ 2 + q.z ^ 2 + 1) * hq

/-- The conjugate rotates backwards. -/
theorem C93_conjugate (q : Q4 K) (v : V3 K) : rotatePosition (qConjugate q) v = rotatePositionBackwards q v := rfl

/-- The product of quaternions first rotates by the second, then by the first. -/
theorem C93_compose (p q : Q4 K) (v : V3 K) : rotatePosition (qMul p q) v = rotatePosition p (rotatePosition q v) := by
  apply v3_ext <;> simp only [rotatePosition, qMul, Q4.matrix] <;> ring

/-- Products of unit quaternions are unit quaternions, and the order of evaluation of a product does not matter. -/
theorem C93_products {p q : Q4 K} (hp : IsUnit4 p) (hq : IsUnit4 q) : IsUnit4 (qMul p q) ∧ IsUnit4 (qConjugate q) ∧
    qMul q (qConjugate q) = ⟨1, 0, 0, 0⟩ ∧ ∀ r, qMul (qMul p q) r = qMul p (qMul q r) := by
  unfold IsUnit4 at *
  refine ⟨?_, ?_, ?_, fun r => ?_⟩
  · simp only [qMul]
    linear_combination (q.w ^ 2 + q.x ^ 2 + q.y ^ 2 + q.z ^ 2) * hp + hq
  · simp only [qConjugate]
    linear_combination hq
  · apply q4_ext <;> simp only [qMul, qConjugate]
    · linear_combination hq
    · ring
    · ring
    · ring
  · apply q4_ext <;> simp only [qMul] <;> ring

section
variable [LinearOrder K] [IsStrictOrderedRing K]

/-- Rotating by means of two products of quaternions: nothing is thrown, and it is the same rotation. -/
theorem C93_sandwich (q : Q4 K) (v : V3 K) : convertQuaternionTo3DVec (qMul (qMulVec q v) (qConjugate q)) = .ok (rotatePosition q v) ∧
    convertQuaternionTo3DVec (qMul q (vecQMul v (qConjugate q))) = .ok (rotatePosition q v) := by
  have key : ∀ p : Q4 K, p.w = 0 → convertQuaternionTo3DVec p = .ok ⟨p.x, p.y, p.z⟩ := by
    intro p hp
    unfold convertQuaternionTo3DVec
    rw [if_neg]
    rw [hp]
    push Not
    constructor <;> norm_num
  constructor
  · rw [key _ (by simp only [qMul, qMulVec, qConjugate]; ring)]
    congr 1
    apply v3_ext <;> simp only [rotatePosition, qMul, qMulVec, qConjugate, Q4.matrix] <;> ring
  · rw [key _ (by simp only [qMul, vecQMul, qConjugate]; ring)]
    congr 1
    apply v3_ext <;> simp only [rotatePosition, qMul, vecQMul, qConjugate, Q4.matrix] <;> ring
end

/-- Axis and angle: the axis `u` stays where it is, and a vector perpendicular to it is turned by twice the angle with cosine `c` and sine `s`, counterclockwise
about `u`. -/
theorem C93_axis_angle {u : V3 K} (hu : u.inner u = 1) {c s : K} (v : V3 K) (hv : v.inner u = 0) :
    rotatePosition ⟨c, s * u.x, s * u.y, s * u.z⟩ v = v.scale (c ^ 2 - s ^ 2) + (u.cross v).scale (2 * s * c) ∧
    (c ^ 2 + s ^ 2 = 1 → rotatePosition ⟨c, s * u.x, s * u.y, s * u.z⟩ u = u) := by
  simp only [V3.inner] at hu hv
  constructor
  · apply v3_ext <;> simp only [rotatePosition, Q4.matrix, v3_add_def, V3.scale, V3.cross]
    · linear_combination (2 * s ^ 2 * u.x) * hv - s ^ 2 * v.x * hu
    · linear_combination (2 * s ^ 2 * u.y) * hv - s ^ 2 * v.y * hu
    · linear_combination (2 * s ^ 2 * u.z) * hv - s ^ 2 * v.z * hu
  · intro h
    apply v3_ext <;> simp only [rotatePosition, Q4.matrix]
    · linear_combination u.x * s ^ 2 * hu + u.x * h
    · linear_combination u.y * s ^ 2 * hu + u.y * h
    · linear_combination u.z * s ^ 2 * hu + u.z * h

/-- Seen in a mirror, the rotation by `q` is the rotation by the mirrored quaternion; for other dimensions there is an exception. -/
theorem C93_mirror (q : Q4 K) : (∀ d : Fin 3, ∃ q', qMirror q d.val = .ok q' ∧ (IsUnit4 q → IsUnit4 q') ∧
      ∀ v, rotatePosition q' (mirrorImage d v) = mirrorImage d (rotatePosition q v)) ∧
    ∀ d : Int, d < 0 ∨ 2 < d → qMirror q d = .throws := by
  refine ⟨fun d => ?_, fun d hd => ?_⟩
  · match d with
    | 0 =>
      refine ⟨_, rfl, fun h => ?_, fun v => ?_⟩
      · unfold IsUnit4 at *; linear_combination h
      · apply v3_ext <;> simp only [rotatePosition, Q4.matrix, mirrorImage] <;> ring
    | 1 =>
      refine ⟨_, rfl, fun h => ?_, fun v => ?_⟩
      · unfold IsUnit4 at *; linear_combination h
      · apply v3_ext <;> simp only [rotatePosition, Q4.matrix, mirrorImage] <;> ring
    | 2 =>
      refine ⟨_, rfl, fun h => ?_, fun v => ?_⟩
      · unfold IsUnit4 at *; linear_combination h
      · apply v3_ext <;> simp only [rotatePosition, Q4.matrix, mirrorImage] <;> ring
  · unfold qMirror
    rw [if_neg (by omega), if_neg (by omega), if_neg (by omega)]

/-- Distances between the sites of a molecule are those of its type, however it is turned. -/
theorem C93_rigid {q : Q4 K} (hq : IsUnit4 q) (a b : V3 K) : normSq (rotatePosition q a - rotatePosition q b) = normSq (a - b) := by
  unfold IsUnit4 at hq
  simp only [rotatePosition, Q4.matrix, normSq, v3_sub_def]
  linear_combination ((a.x - b.x) ^ 2 + (a.y - b.y) ^ 2 + (a.z - b.z) ^ 2) * (q.w ^ 2 + q.x ^ 2 + q.y ^ 2 + q.z ^ 2 + 1) * hq

/-! ### Non-vacuity -/

/-- A third of a turn about the diagonal exchanges the axes. -/
private def exThird : Q4 Rat := ⟨1/2, 1/2, 1/2, 1/2⟩
example : IsUnit4 exThird ∧ rotatePosition exThird ⟨1, 2, 3⟩ = ⟨3, 1, 2⟩ ∧ rotatePosition (qMul exThird exThird) ⟨1, 2, 3⟩ = ⟨2, 3, 1⟩ ∧
    rotatePositionBackwards exThird ⟨1, 2, 3⟩ = ⟨2, 3, 1⟩ := by
  refine ⟨?_, ?_, ?_, ?_⟩
  · unfold IsUnit4; decide +kernel
  all_goals decide +kernel
/-- 3-4-5: a quarter turn and more about the z axis. -/
example : rotatePosition ⟨3/5, 4/5 * 0, 4/5 * 0, 4/5 * 1⟩ (⟨1, 0, 0⟩ : V3 Rat) = ⟨-7/25, 24/25, 0⟩ := by decide +kernel
example : V3.inner (⟨0, 0, 1⟩ : V3 Rat) ⟨0, 0, 1⟩ = 1 ∧ V3.inner (⟨1, 0, 0⟩ : V3 Rat) ⟨0, 0, 1⟩ = 0 := by decide +kernel

end Verif
