import Verif.Model.LogicControl
/-! What it means, for a trace of events, that neighbour lists are used properly. -/
namespace Verif.Spec

/-- Every use of neighbour lists comes at most `n` update calls after the latest preceding build. -/
def UsedWithin (n : Nat) (trace : List Event) : Prop :=
  ∀ before gen after, trace = before ++ Event.used gen :: after →
    ∃ old g since, before = old ++ Event.built g :: since ∧ (∀ g', Event.built g' ∉ since) ∧ since.count Event.update ≤ n

/-- Lists of a container object are only used after they have been built for this object. -/
def BuiltBeforeUse (trace : List Event) : Prop :=
  ∀ before gen after, trace = before ++ Event.used gen :: after → Event.built gen ∈ before

end Verif.Spec
