/-!
Specification vocabulary: "exactly once".
-/
namespace Verif.Spec

/-- Every element satisfying `P` occurs exactly once in `l`, and nothing else occurs. -/
def ExactlyOnce {α : Type _} [DecidableEq α] (l : List α) (P : α → Prop) : Prop :=
  (∀ a, P a → l.count a = 1) ∧ (∀ a, ¬ P a → l.count a = 0)

end Verif.Spec
