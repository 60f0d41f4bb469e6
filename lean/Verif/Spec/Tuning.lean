import Verif.Model.LogicControl
/-!
Specification of a tuning interval with full search, in terms of what is observable: `xs` are the measured times of the
iterations of one tuning interval together with whether the neighbour lists were rebuilt, `used` the configurations that were
used in these iterations.
-/
namespace Verif.Spec

/-- The `i`-th block of `s` measurements. -/
def block (s i : Nat) (xs : List (Int × Bool)) : List (Int × Bool) := (xs.drop (i * s)).take s

/-- Times of the iterations that rebuilt the neighbour lists. -/
def withRebuild (xs : List (Int × Bool)) : List Int := (xs.filter (·.2)).map Prod.fst

/-- Times of the other iterations. -/
def withoutRebuild (xs : List (Int × Bool)) : List Int := (xs.filter (!·.2)).map Prod.fst

/-- Every configuration in `apps` is used in `s` consecutive iterations, in order; afterwards `best` is used. -/
def SampledThen {C : Type} (apps : List C) (s : Nat) (best : C) (used : List C) : Prop :=
  used = apps.flatMap (List.replicate s) ++ List.replicate (used.length - apps.length * s) best

/-- The configuration number `i` of `apps` has the smallest cost of all configurations. -/
def Fastest {C : Type} (apps : List C) (cost : Nat → Int) (best : C) : Prop :=
  ∃ i, apps[i]? = some best ∧ ∀ k < apps.length, cost i ≤ cost k

end Verif.Spec
