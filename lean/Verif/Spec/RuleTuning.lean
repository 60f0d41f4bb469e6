import Verif.Model.RuleBasedTuning
/-!
What the rules of rule-based tuning mean, independent of how the strategy uses them
(documentation: /repo/src/autopas/tuning/tuningStrategy/ruleBasedTuning/RuleBasedTuning.h:33-55).
-/
namespace Verif.Spec

/-- A pattern constrains only the options it mentions. -/
structure Matches (p : CfgPattern) (c : Configuration Rat) : Prop where
  container : p.containers ≠ [] → c.container ∈ p.containers
  traversal : p.traversals ≠ [] → c.traversal ∈ p.traversals
  loadEstimator : p.loadEstimators ≠ [] → c.loadEstimator ∈ p.loadEstimators
  dataLayout : p.dataLayouts ≠ [] → c.dataLayout ∈ p.dataLayouts
  newton3 : p.newton3Options ≠ [] → c.newton3 ∈ p.newton3Options
  cellSizeFactor : p.cellSizeFactors ≠ [] → c.cellSizeFactor ∈ p.cellSizeFactors

/-- The configurations agree in a property named behind `with same`. -/
def AgreeIn (a b : Configuration Rat) : SameProperty → Prop
  | .container => a.container = b.container
  | .traversal => a.traversal = b.traversal
  | .dataLayout => a.dataLayout = b.dataLayout
  | .newton3 => a.newton3 = b.newton3
  | .loadEstimator => a.loadEstimator = b.loadEstimator
  | .cellSizeFactor => a.cellSizeFactor = b.cellSizeFactor

/-- The rule `o` says that `g` is better than `c`. -/
structure SaysBetter (o : CfgOrder) (g c : Configuration Rat) : Prop where
  left : Matches o.greater g
  right : Matches o.smaller c
  same : ∀ x ∈ o.sameProperties, AgreeIn g c x

/-- What the rules say is right for the run times `time`. -/
def RulesTrue (orders : List CfgOrder) (time : Configuration Rat → Int) : Prop :=
  ∀ o ∈ orders, ∀ g c, SaysBetter o g c → time g ≤ time c

/-- Some rule calls `c` the worse one of something. -/
def CalledWorse (orders : List CfgOrder) (c : Configuration Rat) : Prop := ∃ o ∈ orders, Matches o.smaller c

/-- `T` is what should be tested of the search space `S`: everything no rule calls worse; everything at all if the rules leave
nothing. -/
structure ToTest (orders : List CfgOrder) (S T : List (Configuration Rat)) : Prop where
  /-- order and multiplicity of the search space -/
  sublist : T.Sublist S
  mem : ∀ c, c ∈ T ↔ c ∈ S ∧ (CalledWorse orders c → ∀ d ∈ S, CalledWorse orders d)

/-- The search space is sorted by `operator<` of configurations, as in a `std::set`. -/
def Ascending (S : List (Configuration Rat)) : Prop := S.Pairwise fun a b => a.lt b = true

end Verif.Spec
