import Verif.Model.Basic
import Mathlib.Algebra.Order.Field.Rat
/-!
Arithmetic of the force functors (/repo/applicationLibrary/molecularDynamics/molecularDynamicsLibrary/).

A `double` is a number of an ordered field `K` (`Rat`, or the reals where derivatives are taken) or not finite (`inf` or `NaN`, not
distinguished). Simplified: no rounding and no overflow. For `+`, `-` and `*` of IEEE arithmetic a result with an operand that is not
finite is not finite (`0 * inf` is `NaN`); a quotient of numbers is not finite exactly if the divisor is 0. Division by something that is
not finite does not occur in the modelled code.
-/
namespace Verif

/-- A `double`. -/
inductive Num (K : Type)
  | fin (x : K)
  | nonFinite
deriving DecidableEq, Repr

namespace Num
variable {K : Type} [Field K] [DecidableEq K]

instance : Zero (Num K) := ⟨fin 0⟩
/-- `+` -/
def add : Num K → Num K → Num K
  | fin a, fin b => fin (a + b)
  | _, _ => nonFinite
/-- `*` -/
def mul : Num K → Num K → Num K
  | fin a, fin b => fin (a * b)
  | _, _ => nonFinite
/-- unary `-` -/
def neg : Num K → Num K
  | fin a => fin (-a)
  | nonFinite => nonFinite
/-- `/` -/
def div : Num K → Num K → Num K
  | fin a, fin b => if b = 0 then nonFinite else fin (a / b)
  | _, _ => nonFinite
instance : Add (Num K) := ⟨add⟩
instance : Mul (Num K) := ⟨mul⟩
instance : Neg (Num K) := ⟨neg⟩
instance : Sub (Num K) := ⟨fun a b => a + -b⟩
instance : Div (Num K) := ⟨div⟩

/-- Conversion of a `bool` to `double`. -/
def ofBool (b : Bool) : Num K := if b then fin 1 else fin 0

end Num

/-- Componentwise `+`, `-`, negation, product of arrays and product with a scalar, /repo/src/autopas/utils/ArrayMath.h. -/
instance {α : Type} [Zero α] : Zero (V3 α) := ⟨⟨0, 0, 0⟩⟩
instance {α : Type} [Add α] : Add (V3 α) := ⟨fun a b => ⟨a.x + b.x, a.y + b.y, a.z + b.z⟩⟩
instance {α : Type} [Neg α] : Neg (V3 α) := ⟨fun a => ⟨-a.x, -a.y, -a.z⟩⟩
instance {α : Type} [Sub α] : Sub (V3 α) := ⟨fun a b => ⟨a.x - b.x, a.y - b.y, a.z - b.z⟩⟩
instance {α : Type} [Mul α] : Mul (V3 α) := ⟨fun a b => ⟨a.x * b.x, a.y * b.y, a.z * b.z⟩⟩
/-- `array * scalar` -/
def V3.scale {α : Type} [Mul α] (a : V3 α) (s : α) : V3 α := ⟨a.x * s, a.y * s, a.z * s⟩
/-- `ArrayMath::dot` -/
def V3.inner {α : Type} [Mul α] [Add α] (a b : V3 α) : α := a.x * b.x + a.y * b.y + a.z * b.z
/-- Numbers as `double`s. -/
def V3.fin {K : Type} (a : V3 K) : V3 (Num K) := ⟨.fin a.x, .fin a.y, .fin a.z⟩

end Verif
