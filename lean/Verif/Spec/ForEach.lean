import Verif.Spec.Iteration
/-! Vocabulary for `forEach` and `reduce`. -/
namespace Verif.Spec

/-- The behaviours with a name of their own: owned, halo, ownedOrHalo, dummy, ownedOrHaloOrDummy (IteratorBehavior.h). -/
def NamedBehavior (behavior : Nat) : Prop := behavior ∈ [1, 2, 3, 4, 7]

instance (behavior : Nat) : Decidable (NamedBehavior behavior) := inferInstanceAs (Decidable (_ ∈ _))

/-- Applying `f` to the particles that satisfy `sel`, and leaving all others as they are. -/
def applyTo (sel : Particle → Bool) (f : Particle → Particle) (cells : List (List Particle)) : List (List Particle) :=
  cells.map (List.map fun p => if sel p then f p else p)

end Verif.Spec
