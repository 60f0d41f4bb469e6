import Verif.Model.AutoTuner
import Verif.Model.SlowConfigFilter
import Verif.Model.Configuration
import Verif.Model.StringMatch
import Verif.Model.Checkpoint
/-!
Model of /repo/src/autopas/tuning/tuningStrategy/TuningStrategyLogger.cpp, TuningLogEntry.{h,cpp}, TuningStrategyLogReplayer.cpp, of the stream
operators of `Configuration` (/repo/src/autopas/tuning/Configuration.cpp) and of `LiveInfo` (LiveInfo.h:255-287), character by character.

* Numbers are finite; doubles are exact.
* `_evidenceMap` and `traversalTimes` compare configurations exactly (the code compares the cell size factor with a tolerance after comparing hashes).
* The log file exists. Opening it and the name of the file are not modelled.
-/
namespace Verif

/-- The names of the options (`getOptionNames` of ContainerOption.h, TraversalOption.h, LoadEstimatorOption.h, DataLayoutOption.h, Newton3Option.h,
InteractionTypeOption.h). -/
structure OptionTables where
  container : List (Nat × List Char)
  traversal : List (Nat × List Char)
  loadEstimator : List (Nat × List Char)
  dataLayout : List (Nat × List Char)
  newton3 : List (Nat × List Char)
  interactionType : List (Nat × List Char)

/-- `Option::to_string`, /repo/src/autopas/options/Option.h:64-77. -/
def optionText (names : List (Nat × List Char)) (o : Nat) : List Char :=
  match names.find? (fun x => x.1 = o) with
  | some x => x.2
  | none => "Unknown Option (".toList ++ natText o ++ [')']

/-- `std::to_string(double)`: six digits after the decimal point. -/
def fixedText (q : Rat) : List Char :=
  (if q < 0 then ['-'] else []) ++ natText ((roundHalfEven (|q| * 10 ^ 6)).toNat / 10 ^ 6) ++ '.' ::
    paddedText 6 ((roundHalfEven (|q| * 10 ^ 6)).toNat % 10 ^ 6)

/-- `out << n` for a `long`. -/
def intText (n : Int) : List Char := (if n < 0 then ['-'] else []) ++ natText n.natAbs

/-- `Configuration::toString`, Configuration.cpp:11-16. -/
def configText (t : OptionTables) (c : Configuration Rat) : List Char :=
  "{Interaction Type: ".toList ++ optionText t.interactionType c.interactionType ++ " , Container: ".toList ++ optionText t.container c.container ++
    " , CellSizeFactor: ".toList ++ fixedText c.cellSizeFactor ++ " , Traversal: ".toList ++ optionText t.traversal c.traversal ++
    " , Load Estimator: ".toList ++ optionText t.loadEstimator c.loadEstimator ++ " , Data Layout: ".toList ++ optionText t.dataLayout c.dataLayout ++
    " , Newton 3: ".toList ++ optionText t.newton3 c.newton3 ++ ['}']

/-- `LiveInfo::InfoType`, LiveInfo.h:40-41; the options are numbered by their position among the options of the variant. -/
inductive InfoValue
  | bool (b : Bool)
  | double (q : Rat)
  | size (n : Nat)
  | option (kind : Fin 5) (o : Nat)
  deriving DecidableEq

/-- The table of the options of the variant. -/
def OptionTables.info (t : OptionTables) (kind : Fin 5) : List (Nat × List Char) :=
  match kind with
  | 0 => t.container
  | 1 => t.traversal
  | 2 => t.loadEstimator
  | 3 => t.dataLayout
  | 4 => t.newton3

/-- `val.index()`. -/
def InfoValue.index : InfoValue → Nat
  | .bool _ => 0
  | .double _ => 1
  | .size _ => 2
  | .option kind _ => 3 + kind.val

/-- `out << v`. -/
def InfoValue.text (t : OptionTables) : InfoValue → List Char
  | .bool b => if b then ['1'] else ['0']
  | .double q => ratText 6 q
  | .size n => natText n
  | .option kind o => optionText (t.info kind) o

/-- One entry of the map, LiveInfo.h:258-262. -/
def infoText (t : OptionTables) (x : List Char × InfoValue) : List Char :=
  x.1 ++ ' ' :: (natText x.2.index ++ ' ' :: (x.2.text t ++ [' ']))

/-- `operator<<` of `LiveInfo`, LiveInfo.h:255-265. The map is the list of its entries in the order of their names. -/
def liveInfoText (t : OptionTables) (infos : List (List Char × InfoValue)) : List Char :=
  natText infos.length ++ ' ' :: infos.flatMap (infoText t)

/-- What the logger writes (TuningStrategyLogger.cpp:26-51). -/
inductive LogEntry
  | evidence (value : Int) (iteration : Nat) (config : Configuration Rat)
  | tune
  | reset (iteration : Nat)
  | liveInfo (infos : List (List Char × InfoValue))
  deriving DecidableEq

/-- `writeEvidence`, `writeTune`, `writeReset` and `writeLiveInfo`, TuningLogEntry.cpp:11-25: every part is followed by a space (TuningLogEntry.h:25-27). -/
def LogEntry.text (t : OptionTables) : LogEntry → List Char
  | .evidence value iteration config =>
    "evidence".toList ++ ' ' :: (intText value ++ ' ' :: (natText iteration ++ ' ' :: (configText t config ++ [' '])))
  | .tune => "tune".toList ++ [' ']
  | .reset iteration => "reset".toList ++ ' ' :: (natText iteration ++ [' '])
  | .liveInfo infos => "liveInfo".toList ++ ' ' :: (liveInfoText t infos ++ [' '])

/-- The log file: every entry ends with `std::endl`. -/
def logFile (t : OptionTables) (es : List LogEntry) : List Char := es.flatMap fun e => e.text t ++ ['\n']

/-- The logger as a strategy, TuningStrategyLogger.cpp:26-45; the state is what has been written. Live info reaches it through `receiveLiveInfo`
(:52-54), which the tuner of the model does not call. -/
def loggerStrategy : Strategy (List LogEntry) (Configuration Rat) where
  reset s iteration _ queue _ := ((queue, false), s ++ [.reset iteration])
  optimize s queue _ := ((queue, false), s ++ [.tune])
  addEvidence s c e := s ++ [.evidence e.value e.iteration c]
  reject s _ _ := s

/-! ### Reading -/

/-- `in >> option`, Option.h:190-210. On a stream in a failed state `get` leaves its argument, a space, unchanged, and the loop that skips white space does
not end. (If there is nothing behind an option, the stream is left at the end instead of failed; this makes no difference for what follows.) -/
def readOptionFrom (names : List (Nat × List Char)) : InStream → Outcome (Nat × InStream)
  | .good rest => (readOption names rest).bind fun r => .ok (r.1, .good r.2)
  | _ => .diverges

/-- `operator>>` of `Configuration`, Configuration.cpp:122-139. -/
def readConfig (t : OptionTables) (s : InStream) : Outcome (Configuration Rat × InStream) :=
  (readOptionFrom t.interactionType (ignoreUntil ':' s)).bind fun it =>
  (readOptionFrom t.container (ignoreUntil ':' it.2)).bind fun co =>
  let cs := readDouble (ignoreUntil ':' co.2)
  (readOptionFrom t.traversal (ignoreUntil ':' cs.2)).bind fun tr =>
  (readOptionFrom t.loadEstimator (ignoreUntil ':' tr.2)).bind fun le =>
  (readOptionFrom t.dataLayout (ignoreUntil ':' le.2)).bind fun dl =>
  (readOptionFrom t.newton3 (ignoreUntil ':' dl.2)).bind fun n3 =>
  .ok (⟨co.1, tr.1, le.1, dl.1, n3.1, cs.1, it.1⟩, n3.2)

/-- `in >> n` for a `long`. -/
def readLong : InStream → Int × InStream
  | .good rest =>
    let r0 := rest.dropWhile isSpaceChar
    let s := scanSign r0
    let ds := s.2.takeWhile isDigitChar
    let r := s.2.dropWhile isDigitChar
    if ds = [] then (0, endState false r)
    else if s.1 then (if 2 ^ 63 < digitsVal ds then (-2 ^ 63, endState false r) else (-(digitsVal ds : Int), endState true r))
    else if 2 ^ 63 ≤ digitsVal ds then (2 ^ 63 - 1, endState false r) else ((digitsVal ds : Int), endState true r)
  | s => (0, s)

/-- `readEvidence`, TuningLogEntry.cpp:15-17: value, iteration and configuration. -/
def readEvidence (t : OptionTables) (s : InStream) : Outcome (Int × Nat × Configuration Rat) :=
  let v := readLong s
  let i := readNat v.2
  (readConfig t i.2).bind fun c => .ok (v.1, i.1, c.1)

/-- `in >> word`. -/
def readWord : InStream → List Char × InStream
  | .good rest =>
    let r0 := rest.dropWhile isSpaceChar
    (r0.takeWhile (fun c => !isSpaceChar c), endState (!r0.isEmpty) (r0.dropWhile (fun c => !isSpaceChar c)))
  | s => ([], s)

/-- `in >> b` for a `bool`: the number 0 or 1. -/
def readBool (s : InStream) : Bool × InStream :=
  let r := readLong s
  match s with
  | .good _ => if r.1 = 0 then (false, r.2) else if r.1 = 1 then (true, r.2) else (true, match r.2 with | .eof => .eof | _ => .failed)
  | _ => (false, s)

/-- `readIndex`, LiveInfo.h:357-377. For an unknown index nothing is read and the variant holds `false`. (An uninitialized value that cannot be read
because the stream has already failed is taken as 0.) -/
def readInfo (t : OptionTables) (idx : Nat) (s : InStream) : Outcome (InfoValue × InStream) :=
  match idx with
  | 0 => .ok (.bool (readBool s).1, (readBool s).2)
  | 1 => .ok (.double (readDouble s).1, (readDouble s).2)
  | 2 => .ok (.size (readNat s).1, (readNat s).2)
  | k + 3 => if h : k < 5 then (readOptionFrom (t.info ⟨k, h⟩) s).bind fun r => .ok (.option ⟨k, h⟩ r.1, r.2) else .ok (.bool false, s)

/-- `info.infos[name] = val`. -/
def setInfo : List (List Char × InfoValue) → List Char → InfoValue → List (List Char × InfoValue)
  | [], n, v => [(n, v)]
  | x :: l, n, v => if x.1 = n then (n, v) :: l else x :: setInfo l n v

/-- The loop of `operator>>` of `LiveInfo`, LiveInfo.h:276-285. -/
def readInfos (t : OptionTables) : Nat → List (List Char × InfoValue) → InStream → Outcome (List (List Char × InfoValue))
  | 0, acc, _ => .ok acc
  | n + 1, acc, s =>
    let w := readWord s
    let i := readNat w.2
    (readInfo t i.1 i.2).bind fun v => readInfos t n (setInfo acc w.1 v.1) v.2

/-- `operator>>` of `LiveInfo`, LiveInfo.h:273-287. -/
def readLiveInfo (t : OptionTables) (s : InStream) : Outcome (List (List Char × InfoValue)) :=
  readInfos t (readNat s).1 [] (readNat s).2

/-! ### Replaying -/

/-- Local variables of `replay`, TuningStrategyLogReplayer.cpp:36-44. `times` has the newest entry first. -/
structure Replay (σ : Type) where
  queue : List (Configuration Rat)
  evidence : EvidenceMap (Configuration Rat)
  phase : Nat
  best : Option (Configuration Rat)
  added : Bool
  times : List (Configuration Rat × Int × Nat)
  strat : σ

variable {σ : Type}

/-- The loop over the queue, TuningStrategyLogReplayer.cpp:69-81. `back()` of an empty queue is undefined. It does not end if the strategy keeps on adding
configurations: `fuel` is the number of rounds we wait. -/
def replayQueue (st : Strategy σ (Configuration Rat)) (times : List (Configuration Rat × Int × Nat)) (phase : Nat) :
    Nat → List (Configuration Rat) → EvidenceMap (Configuration Rat) → σ → Outcome (EvidenceMap (Configuration Rat) × σ)
  | _, [], ev, s => .ok (ev, s)
  | 0, _ :: _, _, _ => .diverges
  | fuel + 1, q :: qs, ev, s =>
    let r := st.optimize s (q :: qs) ev
    match r.1.1.getLast? with
    | none => .ub
    | some c =>
      match times.find? (fun x => x.1 = c) with
      | some x =>
        let e : Evidence := ⟨x.2.2, phase, x.2.1⟩
        replayQueue st times phase fuel r.1.1.dropLast (addEvidence ev c e) (st.addEvidence r.2 c e)
      | none => replayQueue st times phase fuel r.1.1.dropLast ev r.2

/-- What happens at a reset and at the end of the file, TuningStrategyLogReplayer.cpp:65-93. -/
def replayReset (st : Strategy σ (Configuration Rat)) (fuel : Nat) (x : Replay σ) : Outcome (Replay σ) :=
  (if x.added then
    let r := st.reset x.strat 0 0 x.queue x.evidence
    (replayQueue st x.times x.phase fuel r.1.1 x.evidence r.2).bind fun y =>
    (getOptimalConfiguration y.1 (latestPhase y.1)).bind fun c =>
    .ok { x with queue := [], evidence := y.1, strat := y.2, best := some c, added := false }
  else .ok x).bind fun x =>
  let r := st.reset x.strat 0 (x.phase + 1) x.queue x.evidence
  .ok { x with phase := x.phase + 1, queue := r.1.1, strat := r.2, times := [] }

/-- `std::getline(stream, type, ' ')`, and the rest of the line. -/
def lineType (line : List Char) : List Char := line.takeWhile (· ≠ ' ')
def lineRest (line : List Char) : InStream :=
  match line.dropWhile (· ≠ ' ') with
  | [] => .eof
  | _ :: r => .good r

/-- One line, TuningStrategyLogReplayer.cpp:46-94. `atEnd` is `in.eof()` after reading it; `receive` is `receiveLiveInfo`. -/
def replayLine (t : OptionTables) (st : Strategy σ (Configuration Rat)) (receive : σ → List (List Char × InfoValue) → σ) (fuel : Nat) (atEnd : Bool)
    (line : List Char) (x : Replay σ) : Outcome (Replay σ) :=
  if lineType line = "evidence".toList then
    (readEvidence t (lineRest line)).bind fun r => .ok { x with added := true, times := (r.2.2, r.1, r.2.1) :: x.times }
  else if lineType line = "tune".toList then .ok x
  else if lineType line = "liveInfo".toList then
    (readLiveInfo t (lineRest line)).bind fun i => .ok { x with strat := receive x.strat i }
  else if lineType line = "reset".toList ∨ atEnd = true then replayReset st fuel x
  else .ok x

/-- What successive calls of `std::getline(in, line, '\n')` return until the end of the file is noticed. -/
def splitLines : List Char → List (List Char)
  | [] => [[]]
  | c :: r =>
    if c = '\n' then [] :: splitLines r
    else match splitLines r with
      | l :: ls => (c :: l) :: ls
      | [] => [[c]]

/-- The loop over the lines, TuningStrategyLogReplayer.cpp:45-95; the end of the file is noticed with the last one. -/
def replayLines (t : OptionTables) (st : Strategy σ (Configuration Rat)) (receive : σ → List (List Char × InfoValue) → σ) (fuel : Nat) :
    List (List Char) → Replay σ → Outcome (Replay σ)
  | [], x => .ok x
  | [l], x => replayLine t st receive fuel true l x
  | l :: ls, x => (replayLine t st receive fuel false l x).bind fun x => replayLines t st receive fuel ls x

/-- `replay`, TuningStrategyLogReplayer.cpp:26-98, for a search space in ascending order. -/
def replayLog (t : OptionTables) (st : Strategy σ (Configuration Rat)) (receive : σ → List (List Char × InfoValue) → σ) (fuel : Nat)
    (searchSpace : List (Configuration Rat)) (s : σ) (content : List Char) : Outcome (Option (Configuration Rat)) :=
  (replayLines t st receive fuel (splitLines content)
    { queue := searchSpace.reverse, evidence := [], phase := 0, best := none, added := false, times := [], strat := s }).bind fun x => .ok x.best

end Verif
