import Verif.Model.AutoTuner
import Verif.Model.Configuration
/-!
Model of /repo/src/autopas/tuning/tuningStrategy/ruleBasedTuning/RuleBasedTuning.{h,cpp} and of the configuration patterns and
orders of RuleBasedProgramTree.{h,cpp} in the same directory.

* Options are the integer values of their enumerators; the cell size factor is an exact number.
* Parsing the rule file and running the rule program are the subject of C42. Here the result, the list of the configuration
  orders whose conditions hold for the live information of a tuning phase, is the parameter `active`. The live information is
  received before `reset` in the first iteration of a phase (LogicHandler.h:1562-1569) and stays the same in the phase
  (`AutoTuner::prepareIteration` asks for it only then, AutoTuner.cpp:411-414), so `active` is a function of the number of the phase.
* `std::set<Configuration>` is a list in ascending order with respect to `Configuration::operator<`.
* `_traversalTimes` (an `unordered_map`) is an association list in the order of insertion; the order of the error reports of
  one call of `verifyCurrentConfigTime` is therefore not that of the code, which is unspecified.
* Calls of the error printer are recorded in the order in which they happen. The default printer is an empty
  `std::function`, which throws; the model assumes that the user passed one.
* Not modelled: logging, `_originalSearchSpace` (only logged).
-/
namespace Verif

/-- `ConfigurationPattern`, RuleBasedProgramTree.h:17-41. -/
structure CfgPattern where
  containers : List Nat
  traversals : List Nat
  loadEstimators : List Nat
  dataLayouts : List Nat
  newton3Options : List Nat
  cellSizeFactors : List Rat
deriving DecidableEq, Repr

/-- `ConfigurationPattern::matches`, RuleBasedProgramTree.h:77-84. -/
def CfgPattern.matches (p : CfgPattern) (c : Configuration Rat) : Bool :=
  (p.containers.isEmpty || p.containers.contains c.container) &&
  (p.traversals.isEmpty || p.traversals.contains c.traversal) &&
  (p.loadEstimators.isEmpty || p.loadEstimators.contains c.loadEstimator) &&
  (p.dataLayouts.isEmpty || p.dataLayouts.contains c.dataLayout) &&
  (p.newton3Options.isEmpty || p.newton3Options.contains c.newton3) &&
  (p.cellSizeFactors.isEmpty || p.cellSizeFactors.contains c.cellSizeFactor)

/-- `ConfigurationOrder::SameProperty`, RuleBasedProgramTree.h:206. -/
inductive SameProperty
  | container | traversal | dataLayout | newton3 | loadEstimator | cellSizeFactor
deriving DecidableEq, Repr

/-- `ConfigurationOrder`, RuleBasedProgramTree.h:193-211. -/
structure CfgOrder where
  greater : CfgPattern
  smaller : CfgPattern
  sameProperties : List SameProperty
deriving DecidableEq, Repr

/-- One case of the switch of `haveEqualSameProperties`, RuleBasedProgramTree.cpp:71-90. -/
def SameProperty.equal (a b : Configuration Rat) : SameProperty → Bool
  | .container => decide (a.container = b.container)
  | .traversal => decide (a.traversal = b.traversal)
  | .dataLayout => decide (a.dataLayout = b.dataLayout)
  | .newton3 => decide (a.newton3 = b.newton3)
  | .loadEstimator => decide (a.loadEstimator = b.loadEstimator)
  | .cellSizeFactor => decide (a.cellSizeFactor = b.cellSizeFactor)

/-- `haveEqualSameProperties`, RuleBasedProgramTree.cpp:69-93. -/
def CfgOrder.same (o : CfgOrder) (a b : Configuration Rat) : Bool := o.sameProperties.all (SameProperty.equal a b)

/-- `std::set<Configuration>::insert`. -/
def setInsert (x : Configuration Rat) : List (Configuration Rat) → List (Configuration Rat)
  | [] => [x]
  | y :: l => if x.lt y then x :: y :: l else if y.lt x then y :: setInsert x l else y :: l

/-- `_searchSpace.insert(begin, end)` into the empty set. -/
def setOfList (l : List (Configuration Rat)) : List (Configuration Rat) := l.foldl (fun s x => setInsert x s) []

/-- One call of `_tuningErrorPrinter`: order, configuration that actually is better, its time, configuration that should be
better, its time. -/
structure RuleError where
  order : CfgOrder
  actuallyBetter : Configuration Rat
  actuallyBetterTime : Int
  shouldBeBetter : Configuration Rat
  shouldBeBetterTime : Int
deriving DecidableEq, Repr

/-- Members, RuleBasedTuning.h:158-189, and the errors reported so far. `active`: the orders that the rules of the file yield
for the current live information. -/
structure RuleState where
  active : List CfgOrder
  lastApplicable : List CfgOrder
  tuningTime : Int
  wouldHaveSkipped : Int
  rulesTooHarsh : Bool
  searchSpace : List (Configuration Rat)
  removed : List (Configuration Rat)
  traversalTimes : List (Configuration Rat × Int)
  tuningTimeLifetime : Int
  wouldHaveSkippedLifetime : Int
  errors : List RuleError
deriving DecidableEq, Repr

/-- Constructor, RuleBasedTuning.cpp:13-37 (the rule file exists). -/
def RuleState.init (searchSpace : List (Configuration Rat)) : RuleState :=
  { active := [], lastApplicable := [], tuningTime := 0, wouldHaveSkipped := 0, rulesTooHarsh := false,
    searchSpace := searchSpace, removed := [], traversalTimes := [], tuningTimeLifetime := 0, wouldHaveSkippedLifetime := 0,
    errors := [] }

/-- The condition for removal, RuleBasedTuning.cpp:194-196. -/
def ruledOut (orders : List CfgOrder) (c : Configuration Rat) : Bool := orders.any fun o => o.smaller.matches c

/-- `applyRules`, RuleBasedTuning.cpp:161-212, for the orders `s.active`. -/
def RuleState.applyRules (verify : Bool) (s : RuleState) (queue : List (Configuration Rat)) : RuleState :=
  let newSearchSpace := queue.filter fun c => !ruledOut s.active c
  { s with
    lastApplicable := s.active
    removed := (queue.filter (ruledOut s.active)).foldl (fun r c => setInsert c r) s.removed
    searchSpace := if verify then s.searchSpace else setOfList newSearchSpace }

/-- `optimizeSuggestions`, RuleBasedTuning.cpp:89-108: the new queue and whether the wipe is intentional (never). -/
def RuleState.optimize (verify : Bool) (s : RuleState) (queue : List (Configuration Rat)) :
    (List (Configuration Rat) × Bool) × RuleState :=
  let s := s.applyRules verify queue
  if s.rulesTooHarsh || (s.searchSpace.isEmpty && decide (s.tuningTime = 0)) then
    ((queue, false), { s with rulesTooHarsh := true })
  else if !verify then ((s.searchSpace.reverse, false), s)
  else ((queue, false), s)

/-- `reset`, RuleBasedTuning.cpp:58-83, after `receiveLiveInfo` (:41) of information that makes `orders` applicable. -/
def RuleState.reset (verify : Bool) (s : RuleState) (orders : List CfgOrder) (queue : List (Configuration Rat)) :
    (List (Configuration Rat) × Bool) × RuleState :=
  RuleState.optimize verify
    { s with active := orders, tuningTime := 0, wouldHaveSkipped := 0, removed := [], rulesTooHarsh := false } queue

/-- `_traversalTimes[configuration] = value`, RuleBasedTuning.cpp:48. -/
def setTime : List (Configuration Rat × Int) → Configuration Rat → Int → List (Configuration Rat × Int)
  | [], c, x => [(c, x)]
  | (k, y) :: m, c, x => if k = c then (k, x) :: m else (k, y) :: setTime m c x

/-- One order in `verifyCurrentConfigTime`, RuleBasedTuning.cpp:131-157: the reports for `configuration` with time `current`. -/
def verifyOrder (times : List (Configuration Rat × Int)) (c : Configuration Rat) (current : Int) (o : CfgOrder) : List RuleError :=
  if o.smaller.matches c then
    (times.filter fun x => o.greater.matches x.1 && o.same c x.1 && decide (x.2 > current)).map fun x => ⟨o, c, current, x.1, x.2⟩
  else if o.greater.matches c then
    (times.filter fun x => o.smaller.matches x.1 && o.same c x.1 && decide (x.2 < current)).map fun x => ⟨o, x.1, x.2, c, current⟩
  else []

/-- `addEvidence`, RuleBasedTuning.cpp:43-56, with `verifyCurrentConfigTime`, :130-159 (`_traversalTimes.at(configuration)` is the value
stored just before). -/
def RuleState.addEvidence (verify : Bool) (s : RuleState) (c : Configuration Rat) (value : Int) : RuleState :=
  let times := setTime s.traversalTimes c value
  let skipped := if verify && decide (c ∈ s.removed) then value else 0
  { s with
    tuningTime := s.tuningTime + value
    tuningTimeLifetime := s.tuningTimeLifetime + value
    traversalTimes := times
    wouldHaveSkipped := s.wouldHaveSkipped + skipped
    wouldHaveSkippedLifetime := s.wouldHaveSkippedLifetime + skipped
    errors := if verify then s.errors ++ s.lastApplicable.flatMap (verifyOrder times c value) else s.errors }

/-- The strategy as the tuner sees it. `orders p`: the configuration orders applicable in phase `p`. Rejections are ignored
(TuningStrategyInterface.h:95). -/
def ruleStrategy (verify : Bool) (orders : Nat → List CfgOrder) : Strategy RuleState (Configuration Rat) where
  reset s _ phase queue _ := s.reset verify (orders phase) queue
  optimize s queue _ := s.optimize verify queue
  addEvidence s c e := s.addEvidence verify c e.value
  reject s _ _ := s

end Verif
