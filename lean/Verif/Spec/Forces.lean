import Verif.Spec.Calls
import Mathlib.Algebra.BigOperators.Group.List.Basic
/-! What a pair functor computes. -/
namespace Verif.Spec

/-- What particle `a` accumulates if every contribution it receives, from a particle `b`, adds `F a b`. -/
def accumulated {P M : Type} [DecidableEq P] [AddCommMonoid M] (F : P → P → M) (calls : List (PairCall P)) (a : P) : M :=
  (((contributions calls).filter fun t => t.1 = a).map fun t => F a t.2).sum

end Verif.Spec
