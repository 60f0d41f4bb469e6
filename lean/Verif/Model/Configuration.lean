import Verif.Model.Basic
import Mathlib.Algebra.Order.Ring.Rat
/-!
Model of /repo/src/autopas/tuning/Configuration.{h,cpp}. An option (`ContainerOption`, ...) is the integer value of its enumerator. The
type `D` of the cell size factor is a parameter: exact numbers for comparisons, 64 bit patterns for serialization.
-/
namespace Verif

/-- `Configuration`, Configuration.h:116-142. -/
structure Configuration (D : Type) where
  container : Nat
  traversal : Nat
  loadEstimator : Nat
  dataLayout : Nat
  newton3 : Nat
  cellSizeFactor : D
  interactionType : Nat
deriving DecidableEq, Repr

/-- `equalsDiscreteOptions`, Configuration.cpp:99-102. -/
def Configuration.equalsDiscreteOptions (a b : Configuration Rat) : Bool :=
  decide (a.container = b.container) && decide (a.traversal = b.traversal) && decide (a.loadEstimator = b.loadEstimator) &&
    decide (a.dataLayout = b.dataLayout) && decide (a.newton3 = b.newton3) && decide (a.interactionType = b.interactionType)

/-- `equalsContinuousOptions` with the default epsilon, Configuration.cpp:104-106, Configuration.h:113. -/
def Configuration.equalsContinuousOptions (a b : Configuration Rat) : Bool :=
  decide (|a.cellSizeFactor - b.cellSizeFactor| < 1 / 10 ^ 12)

/-- `operator==`, Configuration.cpp:108-110. -/
def Configuration.eq (a b : Configuration Rat) : Bool := a.equalsContinuousOptions b && a.equalsDiscreteOptions b

/-- Lexicographic comparison of one component, then the rest (`std::tie`). -/
def lexLt {α : Type} [LT α] [DecidableLT α] (x y : α) (rest : Bool) : Bool :=
  if x < y then true else if y < x then false else rest

/-- `operator<`, Configuration.cpp:116-120. -/
def Configuration.lt (a b : Configuration Rat) : Bool :=
  lexLt a.container b.container <| lexLt a.cellSizeFactor b.cellSizeFactor <| lexLt a.traversal b.traversal <|
    lexLt a.loadEstimator b.loadEstimator <| lexLt a.dataLayout b.dataLayout <| lexLt a.newton3 b.newton3 <|
      lexLt a.interactionType b.interactionType false

/-- `ConfigHash`, Configuration.h:207-217, with an arbitrary `std::hash<double>`. -/
def Configuration.hash (doubleHash : Rat → Nat) (c : Configuration Rat) : Nat :=
  (c.interactionType + c.newton3 * 10 + c.dataLayout * 100 + c.loadEstimator * 1000 + c.traversal * 10000 + c.container * 100000) ^^^
    doubleHash c.cellSizeFactor

end Verif
