import Verif.Model.AutoTuner
import Verif.Model.Configuration
/-!
Model of /repo/src/autopas/tuning/tuningStrategy/RandomSearch.{h,cpp} and SortByName.{h,cpp}.

* The random number generator is an arbitrary function: `draw k n` is the result of the `k`-th use of a distribution over `0, …, n - 1`.
* What the code leaves undefined (an access to an empty queue) sets a flag in the state of the strategy, which nothing clears; the rest of the model
  after that is meaningless.
-/
namespace Verif

/-- `_numEvidenceCollected` and `_rng` (number of values drawn so far), RandomSearch.h:51-59, and whether undefined behaviour has occurred. -/
structure RandomState where
  numEvidence : Nat
  draws : Nat
  undefined : Bool
deriving DecidableEq, Repr

/-- The constructor, RandomSearch.cpp:15-16. -/
def RandomState.init : RandomState := { numEvidence := 0, draws := 0, undefined := false }

/-- `std::swap(configQueue.back(), configQueue[i])` for a queue that is not empty and has an element number `i`. -/
def swapBack {C : Type} (q : List C) (i : Nat) : List C :=
  match q.getLast?, q[i]? with
  | some b, some x => (q.set i b).set (q.length - 1) x
  | _, _ => q

/-- `optimizeSuggestions`, RandomSearch.cpp:18-34: the new queue and whether it was wiped on purpose. For an empty queue the distribution is
`(0, 2⁶⁴ - 1)` and both arguments of `std::swap` are outside of the vector. -/
def RandomState.optimize {C : Type} (maxEvidence : Nat) (draw : Nat → Nat → Nat) (s : RandomState) (queue : List C) :
    (List C × Bool) × RandomState :=
  if s.numEvidence = maxEvidence then (([], true), s)
  else if queue.isEmpty then ((queue, false), { s with draws := s.draws + 1, undefined := true })
  else ((swapBack queue (draw s.draws queue.length), false), { s with draws := s.draws + 1 })

/-- The strategy as the tuner sees it: `reset`, RandomSearch.cpp:36-42, `addEvidence`, :44-46; rejections are ignored
(TuningStrategyInterface.h:95). -/
def randomStrategy {C : Type} (maxEvidence : Nat) (draw : Nat → Nat → Nat) : Strategy RandomState C where
  reset s _ _ queue _ := ((queue, false), { s with numEvidence := 0 })
  optimize s queue _ := s.optimize maxEvidence draw queue
  addEvidence s _ _ := { s with numEvidence := s.numEvidence + 1 }
  reject s _ _ := s

/-- `std::sort(configQueue.begin(), configQueue.end())` with `Configuration::operator<`. -/
def sortConfigs (q : List (Configuration Rat)) : List (Configuration Rat) := q.mergeSort fun a b => !b.lt a

/-- `SortByName`, SortByName.cpp:8-20: both functions sort, `addEvidence` and `rejectConfiguration` do nothing. -/
def sortByName : Strategy Unit (Configuration Rat) where
  reset s _ _ queue _ := ((sortConfigs queue, false), s)
  optimize s queue _ := ((sortConfigs queue, false), s)
  addEvidence s _ _ := s
  reject s _ _ := s

end Verif
