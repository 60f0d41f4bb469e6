import Verif.Model.FuzzyLogic
import Verif.Model.RuleBasedTuning
/-!
Model of the tuning strategy `FuzzyTuning` (/repo/src/autopas/tuning/tuningStrategy/fuzzyTuning/FuzzyTuning.cpp, OutputMapper.cpp
and the patterns of parser_generated/TranslationVisitor.cpp). The parsing of the rule file by ANTLR is not modelled.
-/
namespace Verif

/-- One `property = "value"` of a configuration pattern of a rule file, options as in `Configuration`. The value of a cell size
factor is read with `std::stoull`. -/
inductive PatternEntry
  | container (n : Nat)
  | traversal (n : Nat)
  | dataLayout (n : Nat)
  | loadEstimator (n : Nat)
  | newton3 (n : Nat)
  | cellSizeFactor (n : Nat)
deriving DecidableEq, Repr

/-- `pattern.add(makeLiteral(property, value))`, TranslationVisitor.cpp:191-222. The literal of a cell size factor is a `size_t`;
`ConfigurationPattern::add` (RuleBasedProgramTree.h:65-71, 118-127) inserts into the sets whose value type is *exactly* that of
the literal, and the cell size factors are a set of `double`: nothing is inserted. -/
def CfgPattern.addEntry (p : CfgPattern) : PatternEntry → CfgPattern
  | .container n => { p with containers := p.containers ++ [n] }
  | .traversal n => { p with traversals := p.traversals ++ [n] }
  | .dataLayout n => { p with dataLayouts := p.dataLayouts ++ [n] }
  | .loadEstimator n => { p with loadEstimators := p.loadEstimators ++ [n] }
  | .newton3 n => { p with newton3Options := p.newton3Options ++ [n] }
  | .cellSizeFactor _ => p

/-- `visitConfiguration_pattern`, TranslationVisitor.cpp:212-234. -/
def fuzzyPattern (es : List PatternEntry) : CfgPattern := es.foldl CfgPattern.addEntry ⟨[], [], [], [], [], []⟩

section
variable {K : Type} [Field K] [LinearOrder K]

/-- `OutputMapper` (OutputMapper.h): output values and the patterns they stand for. -/
abbrev OutputMapper (K : Type) := List (K × List CfgPattern)

/-- `std::min_element` on `|a.first - value|`: the first of the closest ones. -/
def closestEntry (value : K) : OutputMapper K → Option (K × List CfgPattern)
  | [] => none
  | e :: es => some (es.foldl (fun best e => if |e.1 - value| < |best.1 - value| then e else best) e)

/-- `getClosestConfigurationPatterns`, OutputMapper.cpp:15-27. -/
def OutputMapper.closest (m : OutputMapper K) (value : K) : Outcome (List CfgPattern) :=
  match closestEntry value m with
  | none => .throws
  | some e => .ok e.2

/-- What a `FuzzyTuning` holds after parsing: the settings and, for each output domain in the order of the names, the control
system and the mapping of that domain (`none` if the file gives no mapping: `at` throws). -/
structure FuzzyTuner (K : Type) where
  settings : FuzzySettings K
  systems : List (FuzzySystem K × Option (OutputMapper K))

/-- Prediction and closest patterns of one system, FuzzyTuning.cpp:147-152 and 189-194. -/
def FuzzyTuner.predictPatterns [HasExp K] (f : FuzzyTuner K) (data : FuzzyData K) (s : FuzzySystem K × Option (OutputMapper K)) :
    Outcome (K × List CfgPattern) :=
  (s.1.predict f.settings data).bind fun prediction =>
    match s.2 with
    | none => .throws
    | some m => (m.closest prediction).bind fun ps => .ok (prediction, ps)

/-- Prediction and patterns of all systems. -/
def FuzzyTuner.predictAll [HasExp K] (f : FuzzyTuner K) (data : FuzzyData K) :
    List (FuzzySystem K × Option (OutputMapper K)) → Outcome (List (K × List CfgPattern))
  | [] => .ok []
  | s :: ss => (f.predictPatterns data s).bind fun p => (f.predictAll data ss).bind fun ps => .ok (p :: ps)

/-- `none_of … matches` negated. -/
def anyMatches (ps : List CfgPattern) (c : Configuration Rat) : Bool := ps.any fun p => p.matches c

/-- `updateQueueInterpretOutputAsIndividualSystems`, FuzzyTuning.cpp:141-179, from the patterns of the systems: each system
removes what none of its patterns matches, then the queue is filled from the back of the list. -/
def individualQueue (ps : List (List CfgPattern)) (queue : List (Configuration Rat)) : List (Configuration Rat) :=
  (ps.foldl (fun l p => l.filter (anyMatches p)) queue).reverse

/-- Insertion into a list sorted by descending suitability. -/
def suitabilityInsert (e : CfgPattern × K) : List (CfgPattern × K) → List (CfgPattern × K)
  | [] => [e]
  | d :: ds => if e.2 > d.2 then e :: d :: ds else d :: suitabilityInsert e ds

/-- `std::sort` with `a.second > b.second`, FuzzyTuning.cpp:209-210. -/
def suitabilitySort (es : List (CfgPattern × K)) : List (CfgPattern × K) := es.foldl (fun acc e => suitabilityInsert e acc) []

/-- The patterns that are kept, FuzzyTuning.cpp:213-227: from the best one on, until the first that is too bad. -/
def suitablePatterns (threshold : K) (es : List (CfgPattern × K)) : Outcome (List CfgPattern) :=
  match suitabilitySort es with
  | [] => .ub
  | best :: rest => .ok (((best :: rest).takeWhile fun e => !decide (e.2 < best.2 * (1 - threshold))).map (·.1))

/-- Exactly one pattern per system, FuzzyTuning.cpp:195-203. -/
def singlePatterns : List (K × List CfgPattern) → Outcome (List (CfgPattern × K))
  | [] => .ok []
  | (v, [p]) :: rest => (singlePatterns rest).bind fun es => .ok ((p, v) :: es)
  | _ :: _ => .throws

/-- The patterns that decide what stays in the queue: a configuration stays iff each of the lists has a pattern that matches it. -/
def FuzzyTuner.select [HasExp K] (f : FuzzyTuner K) (data : FuzzyData K) : Outcome (List (List CfgPattern)) :=
  match f.settings.interpretOutputAs with
  | none => .throws
  | some i =>
    if i = "IndividualSystems" then (f.predictAll data f.systems).bind fun ps => .ok (ps.map (·.2))
    else if i = "Suitability" then
      (f.predictAll data f.systems).bind fun ps => (singlePatterns ps).bind fun es =>
        match f.settings.suitabilityThreshold with
        | none => .throws
        | some t => (suitablePatterns t es).bind fun best => .ok [best]
    else .throws

/-- `reset`, FuzzyTuning.cpp:102-127 (and 141-241): the new queue; the flag "wiped intentionally" is always false. -/
def FuzzyTuner.reset [HasExp K] (f : FuzzyTuner K) (data : FuzzyData K) (queue : List (Configuration Rat)) :
    Outcome (List (Configuration Rat) × Bool) :=
  (f.select data).bind fun ps => .ok (individualQueue ps queue, false)

end

/-- The strategy as the tuner sees it, for tunings whose predictions succeed: `sel p` are the patterns selected in phase `p`, see
`FuzzyTuner.select`. `optimizeSuggestions` does nothing (FuzzyTuning.cpp:129-136), neither does `addEvidence` (:100); rejections
are ignored (TuningStrategyInterface.h:95). -/
def fuzzyStrategy (sel : Nat → List (List CfgPattern)) : Strategy Unit (Configuration Rat) where
  reset s _ phase queue _ := ((individualQueue (sel phase) queue, false), s)
  optimize s queue _ := ((queue, false), s)
  addEvidence s _ _ := s
  reject s _ _ := s

end Verif
