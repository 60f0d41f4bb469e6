import Mathlib.Order.Bounds.Basic
import Mathlib.Algebra.BigOperators.Group.Finset.Basic
import Verif.Model.FuzzyTuning
import Verif.Spec.RuleTuning
/-!
What fuzzy tuning promises (documentation: /repo/src/autopas/tuning/tuningStrategy/fuzzyTuning/FuzzyTuning.h:39-330 and the
comments of /repo/src/autopas/tuning/tuningStrategy/fuzzyTuning/fuzzyController/*.h), independent of the code.
-/
namespace Verif.Spec

section
variable {K : Type} [Field K] [LinearOrder K]

/-- A Gaussian has a width. The other functions make sense for all parameters. -/
def ProperFn : MembershipFn K → Prop
  | .gaussian _ sigma => sigma ≠ 0
  | _ => True

/-- All membership functions of a set are proper, and cuts are degrees. -/
def ProperSet : FuzzySet K → Prop
  | .base _ _ _ f => ProperFn f
  | .or a b => ProperSet a ∧ ProperSet b
  | .and a b => ProperSet a ∧ ProperSet b
  | .not a => ProperSet a
  | .cut c a => (0 ≤ c ∧ c ≤ 1) ∧ ProperSet a

/-- `f` is 0 outside of `lo … hi` and 1 on `l … r`, rises in front of `r` and falls behind `l`. -/
structure Peaked (f : K → K) (lo l r hi : K) : Prop where
  left : ∀ x ≤ lo, f x = 0
  right : ∀ x, hi ≤ x → f x = 0
  one : ∀ x, l ≤ x → x ≤ r → f x = 1
  rises : ∀ x y, x ≤ y → y ≤ r → f x ≤ f y
  falls : ∀ x y, l ≤ x → x ≤ y → f y ≤ f x

/-- The classical meaning of a set as a statement about the values of the variables; a term holds if its degree is 1. -/
def Holds [HasExp K] (val : String → K) : FuzzySet K → Prop
  | .base dim _ _ f => f.eval (val dim) = 1
  | .or a b => Holds val a ∨ Holds val b
  | .and a b => Holds val a ∧ Holds val b
  | .not a => ¬ Holds val a
  | .cut _ a => Holds val a

/-- All terms of the set are clear cases, and it is built from terms with `||`, `&&` and `!`. -/
def ClearCase [HasExp K] (val : String → K) : FuzzySet K → Prop
  | .base dim _ _ f => f.eval (val dim) = 0 ∨ f.eval (val dim) = 1
  | .or a b => ClearCase val a ∧ ClearCase val b
  | .and a b => ClearCase val a ∧ ClearCase val b
  | .not a => ClearCase val a
  | .cut _ _ => False

/-- The value `x` for the variable `name`, nothing else. -/
def onlyValue (name : String) (x : K) : FuzzyData K := fun d => if d = name then some x else none

/-- To which degree the rules, applied to `data`, suggest the output `x`: the largest of all rules' degrees, that of a rule being
the smaller one of the degrees of its two sides. -/
def SuggestedDegree [HasExp K] (rules : List (FuzzyRule K)) (data : FuzzyData K) (name : String) (x m : K) : Prop :=
  IsGreatest {d | ∃ r ∈ rules, ∃ a c, r.antecedent.eval data = .ok a ∧ r.consequent.eval (onlyValue name x) = .ok c ∧
    d = min a c} m

/-- Number `i` of `n` evenly spaced points from `lo` to `hi`. -/
def evenPoint (n : Nat) (lo hi : K) (i : Nat) : K := lo + (i : K) * ((hi - lo) / ((n : K) - 1))

/-- All rules suggest values of the output `name` with the range `lo … hi`, and can be evaluated for the data. -/
structure SystemFor [HasExp K] (rules : List (FuzzyRule K)) (data : FuzzyData K) (name : String) (lo hi : K) : Prop where
  some_rule : rules ≠ []
  output : ∀ r ∈ rules, r.consequent.dims = [(name, lo, hi)]
  input : ∀ r ∈ rules, ∃ a, r.antecedent.eval data = .ok a
  proper : ∀ r ∈ rules, ProperSet r.antecedent ∧ ProperSet r.consequent

/-- `e` is the first of the entries whose value is closest to `v`. -/
structure FirstClosest (m : OutputMapper K) (v : K) (e : K × List CfgPattern) : Prop where
  closest : ∀ e' ∈ m, |e.1 - v| ≤ |e'.1 - v|
  first : ∃ before after, m = before ++ e :: after ∧ ∀ e' ∈ before, |e.1 - v| < |e'.1 - v|

end

/-- The configuration agrees with one entry of a pattern. -/
def Meets (c : Configuration Rat) : PatternEntry → Prop
  | .container n => c.container = n
  | .traversal n => c.traversal = n
  | .dataLayout n => c.dataLayout = n
  | .loadEstimator n => c.loadEstimator = n
  | .newton3 n => c.newton3 = n
  | .cellSizeFactor n => c.cellSizeFactor = (n : Rat)

/-- The entries constrain the same option. -/
def SameOption : PatternEntry → PatternEntry → Prop
  | .container _, .container _ => True
  | .traversal _, .traversal _ => True
  | .dataLayout _, .dataLayout _ => True
  | .loadEstimator _, .loadEstimator _ => True
  | .newton3 _, .newton3 _ => True
  | .cellSizeFactor _, .cellSizeFactor _ => True
  | _, _ => False

/-- The configuration has, for each option in the pattern, one of the values given for it. -/
def MeetsAll (es : List PatternEntry) (c : Configuration Rat) : Prop :=
  ∀ e ∈ es, ∃ e' ∈ es, SameOption e e' ∧ Meets c e'

/-- Each of the lists has a pattern that the configuration matches. -/
def Selected (sel : List (List CfgPattern)) (c : Configuration Rat) : Prop := ∀ ps ∈ sel, ∃ p ∈ ps, Matches p c

/-- `T` is what is tested of the search space `S`, and in which order: what is selected, last one first; everything if nothing is
selected. -/
structure FuzzyToTest (sel : List (List CfgPattern)) (S T : List (Configuration Rat)) : Prop where
  mem : ∀ c, c ∈ T ↔ c ∈ S ∧ (Selected sel c ∨ ∀ d ∈ S, ¬ Selected sel d)
  selectedOrder : (∃ c ∈ S, Selected sel c) → T.reverse.Sublist S
  otherwise : (∀ c ∈ S, ¬ Selected sel c) → T = S

end Verif.Spec
