import Verif.Model.Num
import Verif.Model.Outcome
import Mathlib.Algebra.Order.Field.Basic
/-!
# Quaternions: /repo/src/autopas/utils/Quaternion.cpp

`double` is a field `K`.
-/
namespace Verif

/-- `std::array<double, 4>`; `w` is entry 0. -/
structure Q4 (K : Type) where
  w : K
  x : K
  y : K
  z : K
deriving DecidableEq, Repr

/-- `ArrayMath::cross`, /repo/src/autopas/utils/ArrayMath.h:248-255. -/
def V3.cross {K : Type} [Mul K] [Sub K] (a b : V3 K) : V3 K := ⟨a.y * b.z - a.z * b.y, a.z * b.x - a.x * b.z, a.x * b.y - a.y * b.x⟩

section
variable {K : Type} [Field K]

/-- The entries `r00` to `r22`, row by row, Quaternion.cpp:55-74. -/
def Q4.matrix (q : Q4 K) : V3 (V3 K) :=
  let ww := q.w * q.w
  let wx := q.w * q.x
  let wy := q.w * q.y
  let wz := q.w * q.z
  let xx := q.x * q.x
  let xy := q.x * q.y
  let xz := q.x * q.z
  let yy := q.y * q.y
  let yz := q.y * q.z
  let zz := q.z * q.z
  ⟨⟨ww + xx - yy - zz, 2 * (xy - wz), 2 * (xz + wy)⟩,
   ⟨2 * (xy + wz), ww - xx + yy - zz, 2 * (yz - wx)⟩,
   ⟨2 * (xz - wy), 2 * (yz + wx), ww - xx - yy + zz⟩⟩

/-- `rotatePosition`, Quaternion.cpp:53-82. -/
def rotatePosition (q : Q4 K) (pos : V3 K) : V3 K :=
  let r := q.matrix
  ⟨r.x.x * pos.x + r.x.y * pos.y + r.x.z * pos.z,
   r.y.x * pos.x + r.y.y * pos.y + r.y.z * pos.z,
   r.z.x * pos.x + r.z.y * pos.y + r.z.z * pos.z⟩

/-- The matrix is computed again, Quaternion.cpp:13-51. -/
def rotateVectorOfPositions (q : Q4 K) (positions : List (V3 K)) : List (V3 K) :=
  let ww := q.w * q.w
  let wx := q.w * q.x
  let wy := q.w * q.y
  let wz := q.w * q.z
  let xx := q.x * q.x
  let xy := q.x * q.y
  let xz := q.x * q.z
  let yy := q.y * q.y
  let yz := q.y * q.z
  let zz := q.z * q.z
  let r00 := ww + xx - yy - zz
  let r01 := 2 * (xy - wz)
  let r02 := 2 * (xz + wy)
  let r10 := 2 * (xy + wz)
  let r11 := ww - xx + yy - zz
  let r12 := 2 * (yz - wx)
  let r20 := 2 * (xz - wy)
  let r21 := 2 * (yz + wx)
  let r22 := ww - xx - yy + zz
  positions.map fun p => ⟨r00 * p.x + r01 * p.y + r02 * p.z, r10 * p.x + r11 * p.y + r12 * p.z, r20 * p.x + r21 * p.y + r22 * p.z⟩

/-- `rotatePositionBackwards`, Quaternion.cpp:84-86. -/
def rotatePositionBackwards (q : Q4 K) (pos : V3 K) : V3 K := rotatePosition ⟨q.w, -q.x, -q.y, -q.z⟩ pos

/-- `qMul`, Quaternion.cpp:88-93. -/
def qMul (a b : Q4 K) : Q4 K :=
  ⟨a.w * b.w - a.x * b.x - a.y * b.y - a.z * b.z,
   a.w * b.x + a.x * b.w + a.y * b.z - a.z * b.y,
   a.w * b.y - a.x * b.z + a.y * b.w + a.z * b.x,
   a.w * b.z + a.x * b.y - a.y * b.x + a.z * b.w⟩

/-- `qMul` of a quaternion and a vector, Quaternion.cpp:95-97. -/
def qMulVec (q : Q4 K) (v : V3 K) : Q4 K := qMul q ⟨0, v.x, v.y, v.z⟩

/-- `qMul` of a vector and a quaternion, Quaternion.cpp:99-101. -/
def vecQMul (v : V3 K) (q : Q4 K) : Q4 K := qMul ⟨0, v.x, v.y, v.z⟩ q

/-- `qConjugate`, Quaternion.cpp:103. -/
def qConjugate (q : Q4 K) : Q4 K := ⟨q.w, -q.x, -q.y, -q.z⟩

/-- `convertQuaternionTo3DVec`, Quaternion.cpp:105-111. -/
def convertQuaternionTo3DVec [LinearOrder K] (q : Q4 K) : Outcome (V3 K) :=
  if 1 / 10000000000000 < q.w ∨ q.w < -(1 / 10000000000000) then .throws else .ok ⟨q.x, q.y, q.z⟩

/-- `qMirror`, Quaternion.cpp:113-124. -/
def qMirror (q : Q4 K) (dimensionNormalToMirror : Int) : Outcome (Q4 K) :=
  if dimensionNormalToMirror = 0 then .ok ⟨q.w, q.x, -q.y, -q.z⟩
  else if dimensionNormalToMirror = 1 then .ok ⟨q.w, -q.x, q.y, -q.z⟩
  else if dimensionNormalToMirror = 2 then .ok ⟨q.w, -q.x, -q.y, q.z⟩
  else .throws

/-- Sum and product with a scalar of arrays, ArrayMath.h. -/
instance : Add (Q4 K) := ⟨fun a b => ⟨a.w + b.w, a.x + b.x, a.y + b.y, a.z + b.z⟩⟩
instance : Sub (Q4 K) := ⟨fun a b => ⟨a.w - b.w, a.x - b.x, a.y - b.y, a.z - b.z⟩⟩
def Q4.scale (a : Q4 K) (s : K) : Q4 K := ⟨a.w * s, a.x * s, a.y * s, a.z * s⟩
/-- `ArrayMath::dot`. -/
def Q4.inner (a b : Q4 K) : K := a.w * b.w + a.x * b.x + a.y * b.y + a.z * b.z

end
end Verif
