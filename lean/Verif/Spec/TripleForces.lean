import Verif.Spec.Calls
import Mathlib.Algebra.BigOperators.Group.List.Basic
/-! What three-body functor calls add up to. -/
namespace Verif.Spec

/-- What particle `a` accumulates if every contribution it receives, from particles `b` and `c`, adds `F a b c`. -/
def accumulated3 {P M : Type} [DecidableEq P] [AddCommMonoid M] (F : P → P → P → M) (calls : List (TripleCall P)) (a : P) : M :=
  (((contributions3 calls).filter fun t => t.1 = a).map fun t => F a t.2.1 t.2.2).sum

/-- All pairs of elements at different places of a list, each once (in one of the two orders). -/
def unorderedPairs {P : Type} : List P → List (P × P)
  | [] => []
  | x :: l => l.map (fun y => (x, y)) ++ unorderedPairs l

end Verif.Spec

namespace Verif.Spec

/-- All sets of three elements at different places of a list, each once. -/
def unorderedTriples {P : Type} : List P → List (P × P × P)
  | [] => []
  | x :: l => (unorderedPairs l).map (fun t => (x, t)) ++ unorderedTriples l

end Verif.Spec
