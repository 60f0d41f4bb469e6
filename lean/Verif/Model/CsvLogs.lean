/-!
Model of the log files in CSV format: /repo/src/autopas/utils/logging/{IterationLogger,FLOPLogger,TuningDataLogger,TuningResultLogger,PredictionLogger,
LiveInfoLogger}.cpp, `Configuration::getCSVRepresentation` (/repo/src/autopas/tuning/Configuration.cpp) and `LiveInfo::getCSVLine`
(/repo/src/autopas/tuning/tuningStrategy/LiveInfo.h). Texts are lists of characters. Numbers are given as the text the formatting library writes for them.
Not modelled: when buffered lines reach the file, the date at the start of each line (any text `date`), file names.
-/
namespace Verif

/-- A string. -/
abbrev Text := List Char

/-! ### Regular expressions (ECMAScript: leftmost match, greedy, with backtracking) -/

/-- `std::sregex_iterator` with the texts of the first group: `m` matches at the start of the text, and gives the group and the rest. -/
def regexAll (m : Text → Option (Text × Text)) : Text → List Text
  | [] => []
  | c :: cs =>
    match m (c :: cs) with
    | some (g, rest) => if rest.length < (c :: cs).length then g :: regexAll m rest else []
    | none => regexAll m cs
termination_by s => s.length
decreasing_by
  · assumption
  · simp

/-- The part `(?: ,|\})` after the group, for a group of at most `k` (and at least one) characters, longest first. -/
def valueBacktrack (t : Text) : Nat → Option (Text × Text)
  | 0 => none
  | k + 1 =>
    match t.drop (k + 1) with
    | ' ' :: ',' :: rest => some (t.take (k + 1), rest)
    | '}' :: rest => some (t.take (k + 1), rest)
    | _ => valueBacktrack t k

/-- `: ([^,]+)(?: ,|\})`, Configuration.cpp:35. -/
def matchValue : Text → Option (Text × Text)
  | ':' :: ' ' :: t => valueBacktrack t (t.takeWhile (· != ',')).length
  | _ => none

/-- `([^:]+):[^,]*` (only the longest group can be followed by a colon). -/
def matchName (t : Text) : Option (Text × Text) :=
  match t.dropWhile (· != ':') with
  | ':' :: r => if (t.takeWhile (· != ':')).isEmpty then none else some (t.takeWhile (· != ':'), r.dropWhile (· != ','))
  | _ => none

/-- `[\{, ]+` of at most `k` (and at least one) characters, longest first, followed by the rest of the expression. -/
def keyBacktrack (s : Text) : Nat → Option (Text × Text)
  | 0 => none
  | k + 1 => match matchName (s.drop (k + 1)) with | some r => some r | none => keyBacktrack s k

/-- `[\{, ]+([^:]+):[^,]*`, Configuration.cpp:32. -/
def matchKey (s : Text) : Option (Text × Text) := keyBacktrack s (s.takeWhile fun c => c == '{' || c == ',' || c == ' ').length

/-- Each match followed by a comma, then the last character is dropped, Configuration.cpp:41-49, LiveInfo.h:309-324. -/
def commaTerminated (gs : List Text) : Text := (gs.flatMap fun g => g ++ [',']).dropLast

/-! ### Configurations -/

/-- The texts of the options of a configuration (`to_string` of the options, `std::to_string` of the cell size factor). -/
structure ConfigTexts where
  interactionType : Text
  container : Text
  cellSizeFactor : Text
  traversal : Text
  loadEstimator : Text
  dataLayout : Text
  newton3 : Text

/-- `toString`, Configuration.cpp:11-16. -/
def ConfigTexts.toText (c : ConfigTexts) : Text :=
  "{Interaction Type: ".toList ++ c.interactionType ++ " , Container: ".toList ++ c.container ++ " , CellSizeFactor: ".toList ++ c.cellSizeFactor ++
    " , Traversal: ".toList ++ c.traversal ++ " , Load Estimator: ".toList ++ c.loadEstimator ++ " , Data Layout: ".toList ++ c.dataLayout ++
    " , Newton 3: ".toList ++ c.newton3 ++ "}".toList

/-- `getCSVHeader`, Configuration.cpp:18, 28-50. -/
def ConfigTexts.csvHeader (c : ConfigTexts) : Text := commaTerminated (regexAll matchKey c.toText)

/-- `getCSVLine`, Configuration.cpp:20, 28-50. -/
def ConfigTexts.csvLine (c : ConfigTexts) : Text := commaTerminated (regexAll matchValue c.toText)

/-- `Configuration()`, Configuration.h:53-54, with the texts of options without a name (Option.h:69); the headers are taken from it. -/
def defaultConfigTexts : ConfigTexts :=
  let unknown (n : String) : Text := "Unknown Option (".toList ++ n.toList ++ ")".toList
  ⟨unknown "-1", unknown "-1", "-1.000000".toList, unknown "-1", unknown "-1", unknown "-1", unknown "-1"⟩

/-! ### Lines -/

/-- `info("{},{},...", ...)`. -/
def csvFormat : List Text → Text
  | [] => []
  | [f] => f
  | f :: fs => f ++ ',' :: csvFormat fs

/-- The pattern `"%Y-%m-%d %T,%v"` of all lines but the header. -/
def datedLine (date line : Text) : Text := date ++ ',' :: line

/-- The header of `IterationLogger`, IterationLogger.cpp:24-40. -/
def iterationHeader (energyMeasurements : Bool) : Text :=
  "Date,Iteration,Functor,inTuningPhase,".toList ++ defaultConfigTexts.csvHeader ++
    ",computeInteractions[ns],remainderTraversal[ns],rebuildNeighborLists[ns],computeInteractionsTotal[ns],tuning[ns]".toList ++
    if energyMeasurements then ",energyPsys[J],energyPkg[J],energyRam[J]".toList else []

/-- `IterationMeasurements`, IterationMeasurements.h, as texts. -/
structure MeasurementTexts where
  computeInteractions : Text
  remainder : Text
  rebuild : Text
  total : Text
  energyPossible : Bool
  psys : Text
  pkg : Text
  ram : Text

/-- `IterationLogger::logIteration`, IterationLogger.cpp:57-76. -/
def iterationLine (date : Text) (c : ConfigTexts) (iteration functorName : Text) (inTuningPhase : Bool) (tuning : Text) (m : MeasurementTexts) : Text :=
  let phase : Text := if inTuningPhase then "true".toList else "false".toList
  datedLine date <|
    if m.energyPossible then
      csvFormat [iteration, functorName, phase, c.csvLine, m.computeInteractions, m.remainder, m.rebuild, m.total, tuning, m.psys, m.pkg, m.ram]
    else csvFormat [iteration, functorName, phase, c.csvLine, m.computeInteractions, m.remainder, m.rebuild, m.total, tuning]

/-- The header of `FLOPLogger`, FLOPLogger.cpp:25-29. -/
def flopHeader : Text := "Date,Iteration,Number FLOPs,Hit Rate".toList

/-- `FLOPLogger::logIteration`, FLOPLogger.cpp:46-56; `none`: the functor does not count. -/
def flopLine (date iteration : Text) (flops hitRate : Option Text) : Text :=
  datedLine date (csvFormat [iteration, flops.getD "Not Implemented".toList, hitRate.getD "Not Implemented".toList])

/-- The header of `TuningDataLogger`, TuningDataLogger.cpp:26-31; `num` writes a number. -/
def tuningDataHeader (num : Nat → Text) (numSamples : Nat) : Text :=
  "Date,Iteration,".toList ++ defaultConfigTexts.csvHeader ++ ((List.range numSamples).flatMap fun i => ",sample".toList ++ num i) ++ ",Reduced,Smoothed".toList

/-- `TuningDataLogger::logTuningData`, TuningDataLogger.cpp:46-57; `ArrayUtils::to_string(..., ",", {"", ""})`, /repo/src/autopas/utils/ArrayUtils.h:102-115. -/
def tuningDataLine (date : Text) (c : ConfigTexts) (rebuilding notRebuilding : List Text) (iteration reduced smoothed : Text) : Text :=
  datedLine date (csvFormat [iteration, c.csvLine, csvFormat rebuilding, csvFormat notRebuilding, reduced, smoothed])

/-- The header of `TuningResultLogger`, TuningResultLogger.cpp:25. -/
def tuningResultHeader : Text := "Date,Iteration,".toList ++ defaultConfigTexts.csvHeader ++ ",tuning[ns],optimumPerformance[ns]".toList

/-- `TuningResultLogger::logTuningResult`, TuningResultLogger.cpp:36-41. -/
def tuningResultLine (date : Text) (c : ConfigTexts) (iteration tuning optimum : Text) : Text := datedLine date (csvFormat [iteration, c.csvLine, tuning, optimum])

/-- The header of `PredictionLogger`, PredictionLogger.cpp:25. -/
def predictionHeader : Text := "Date,Tuning Phase,".toList ++ defaultConfigTexts.csvHeader ++ ",Prediction".toList

/-- One line of `PredictionLogger::logAllPredictions`, PredictionLogger.cpp:43-53; `none`: the prediction is the error value. -/
def predictionLine (date : Text) (c : ConfigTexts) (phase : Text) (prediction : Option Text) : Text :=
  datedLine date (csvFormat [phase, c.csvLine, prediction.getD "none".toList])

/-! ### Live info -/

/-- `([^= ]+)=[^ ]*`, LiveInfo.h:294 (only the longest group can be followed by `=`). -/
def matchInfoKey (s : Text) : Option (Text × Text) :=
  match s.dropWhile (fun c => c != '=' && c != ' ') with
  | '=' :: r => if (s.takeWhile fun c => c != '=' && c != ' ').isEmpty then none else some (s.takeWhile fun c => c != '=' && c != ' ', r.dropWhile (· != ' '))
  | _ => none

/-- `=([^ ]+)`, LiveInfo.h:296. -/
def matchInfoValue : Text → Option (Text × Text)
  | '=' :: r => if (r.takeWhile (· != ' ')).isEmpty then none else some (r.takeWhile (· != ' '), r.dropWhile (· != ' '))
  | _ => none

/-- `toString` without the text in front, LiveInfo.h:228-246, 300. -/
def csvInfoText : List (Text × Text) → Text
  | [] => []
  | [(k, v)] => k ++ '=' :: v
  | (k, v) :: l => k ++ '=' :: v ++ ' ' :: csvInfoText l

/-- `getCSVLine`, LiveInfo.h:291-327: header and line. -/
def infoCSV (infos : List (Text × Text)) : Text × Text :=
  (commaTerminated (regexAll matchInfoKey (csvInfoText infos)), commaTerminated (regexAll matchInfoValue (csvInfoText infos)))

/-- `LiveInfoLogger::logLiveInfo` for a history of infos, LiveInfoLogger.cpp:31-55: the header is that of the first. -/
def infoFile : List (Text × Text × List (Text × Text)) → List Text
  | [] => []
  | (date, iteration, infos) :: l =>
    ("Date,Iteration,".toList ++ (infoCSV infos).1) :: ((date, iteration, infos) :: l).map fun (d, i, is) => datedLine d (csvFormat [i, (infoCSV is).2])

end Verif
