import Verif.Model.Num
import Mathlib.Algebra.BigOperators.Group.List.Lemmas
import Mathlib.Algebra.Group.Pi.Basic
/-! Addition of doubles without rounding is commutative and associative. -/
namespace Verif

theorem V3.ext' {α : Type} {a b : V3 α} (hx : a.x = b.x) (hy : a.y = b.y) (hz : a.z = b.z) : a = b := by
  cases a; cases b; simp only at hx hy hz; subst hx hy hz; rfl

namespace Num
variable {K : Type} [Field K] [DecidableEq K]

@[simp] theorem fin_add (a b : K) : (fin a + fin b : Num K) = fin (a + b) := rfl
@[simp] theorem fin_mul (a b : K) : (fin a * fin b : Num K) = fin (a * b) := rfl
@[simp] theorem fin_neg (a : K) : (-fin a : Num K) = fin (-a) := rfl
theorem sub_def (a b : Num K) : a - b = a + -b := rfl
@[simp] theorem fin_sub (a b : K) : (fin a - fin b : Num K) = fin (a - b) := by rw [sub_def, fin_neg, fin_add, sub_eq_add_neg]
theorem fin_div {a b : K} (h : b ≠ 0) : (fin a / fin b : Num K) = fin (a / b) := by
  change div (fin a) (fin b) = _; unfold div; simp only [if_neg h]
theorem zero_def : (0 : Num K) = fin 0 := rfl
@[simp] theorem nf_add (a : Num K) : (nonFinite + a : Num K) = nonFinite := by cases a <;> rfl
@[simp] theorem add_nf (a : Num K) : (a + nonFinite : Num K) = nonFinite := by cases a <;> rfl
@[simp] theorem neg_nf : (-nonFinite : Num K) = nonFinite := rfl
@[simp] theorem nf_mul (a : Num K) : (nonFinite * a : Num K) = nonFinite := by cases a <;> rfl
@[simp] theorem mul_nf (a : Num K) : (a * nonFinite : Num K) = nonFinite := by cases a <;> rfl

instance : AddCommMonoid (Num K) where
  add_assoc a b c := by
    cases a <;> cases b <;> cases c <;> simp [add_assoc]
  zero_add a := by cases a <;> simp [zero_def]
  add_zero a := by cases a <;> simp [zero_def]
  add_comm a b := by cases a <;> cases b <;> simp [add_comm]
  nsmul := nsmulRec

end Num

namespace V3
@[simp] theorem zero_x {α : Type} [Zero α] : (0 : V3 α).x = 0 := rfl
@[simp] theorem zero_y {α : Type} [Zero α] : (0 : V3 α).y = 0 := rfl
@[simp] theorem zero_z {α : Type} [Zero α] : (0 : V3 α).z = 0 := rfl
@[simp] theorem add_x {α : Type} [Add α] (a b : V3 α) : (a + b).x = a.x + b.x := rfl
@[simp] theorem add_y {α : Type} [Add α] (a b : V3 α) : (a + b).y = a.y + b.y := rfl
@[simp] theorem add_z {α : Type} [Add α] (a b : V3 α) : (a + b).z = a.z + b.z := rfl
@[simp] theorem sub_x {α : Type} [Sub α] (a b : V3 α) : (a - b).x = a.x - b.x := rfl
@[simp] theorem sub_y {α : Type} [Sub α] (a b : V3 α) : (a - b).y = a.y - b.y := rfl
@[simp] theorem sub_z {α : Type} [Sub α] (a b : V3 α) : (a - b).z = a.z - b.z := rfl
@[simp] theorem mul_x {α : Type} [Mul α] (a b : V3 α) : (a * b).x = a.x * b.x := rfl
@[simp] theorem mul_y {α : Type} [Mul α] (a b : V3 α) : (a * b).y = a.y * b.y := rfl
@[simp] theorem mul_z {α : Type} [Mul α] (a b : V3 α) : (a * b).z = a.z * b.z := rfl
@[simp] theorem neg_x {α : Type} [Neg α] (a : V3 α) : (-a).x = -a.x := rfl
@[simp] theorem neg_y {α : Type} [Neg α] (a : V3 α) : (-a).y = -a.y := rfl
@[simp] theorem neg_z {α : Type} [Neg α] (a : V3 α) : (-a).z = -a.z := rfl
@[simp] theorem scale_x {α : Type} [Mul α] (a : V3 α) (s : α) : (a.scale s).x = a.x * s := rfl
@[simp] theorem scale_y {α : Type} [Mul α] (a : V3 α) (s : α) : (a.scale s).y = a.y * s := rfl
@[simp] theorem scale_z {α : Type} [Mul α] (a : V3 α) (s : α) : (a.scale s).z = a.z * s := rfl
@[simp] theorem fin_x {K : Type} (a : V3 K) : a.fin.x = .fin a.x := rfl
@[simp] theorem fin_y {K : Type} (a : V3 K) : a.fin.y = .fin a.y := rfl
@[simp] theorem fin_z {K : Type} (a : V3 K) : a.fin.z = .fin a.z := rfl

instance {M : Type} [AddCommMonoid M] : AddCommMonoid (V3 M) where
  add_assoc a b c := V3.ext' (add_assoc _ _ _) (add_assoc _ _ _) (add_assoc _ _ _)
  zero_add a := V3.ext' (zero_add _) (zero_add _) (zero_add _)
  add_zero a := V3.ext' (add_zero _) (add_zero _) (add_zero _)
  add_comm a b := V3.ext' (add_comm _ _) (add_comm _ _) (add_comm _ _)
  nsmul := nsmulRec

theorem fin_add {K : Type} [Field K] [DecidableEq K] (a b : V3 K) : (a + b).fin = a.fin + b.fin := rfl
theorem fin_zero {K : Type} [Field K] [DecidableEq K] : (0 : V3 K).fin = 0 := rfl
theorem fin_neg {K : Type} [Field K] [DecidableEq K] (a : V3 K) : (-a).fin = -a.fin := rfl

theorem fin_sum {K : Type} [Field K] [DecidableEq K] (l : List (V3 K)) : (l.map V3.fin).sum = l.sum.fin := by
  induction l with
  | nil => rfl
  | cons a l ih => rw [List.map_cons, List.sum_cons, List.sum_cons, ih, fin_add]

end V3
end Verif
