import Verif.Model.StringMatch
/-!
Model of the command line of md-flexible: /repo/examples/md-flexible/src/configuration/CLIParser.cpp, MDFlexParser.cpp, with the names of the options from
MDFlexConfig.h. Strings are lists of characters.

Simplified: `getopt_long` is not modelled; its results are the input: the sequence of options with their arguments (`inputFilesPresent` sees the same sequence).
Not finite numbers (`nan`, `inf`), `std::cerr` and the texts of help messages are left out. Tables of option names, `std::stod`, `parseNumberSet` and the file system
are arbitrary (`CliEnv`). ALL is compiled in.
-/
namespace Verif

/-- The value of an option. Options of AutoPas are numbers of enumerators. -/
inductive CliVal
  | bool (b : Bool)
  | num (n : Nat)
  | real (x : Rat)
  | reals (x y z : Rat)
  | text (t : List Char)
  | numbers (l : List Rat)
  | opts (l : List Nat)
  | enum (name : String)
deriving DecidableEq

/-- What the parser uses. -/
structure CliEnv where
  /-- `std::stod`; `none`: it throws. -/
  stod : List Char → Option Rat
  /-- `parseNumberSet`: the numbers of a finite set, or the bounds of an interval. -/
  numberSet : List Char → List Rat
  /-- `getOptionNames()` of the type of the option. -/
  names : String → List (Nat × List Char)
  /-- `checkFileExists`, CLIParser.cpp:22-25. -/
  fileExists : List Char → Bool

/-! ### `std::stoul` -/

/-- The number denoted by digits. -/
def digitsValue (ds : List Char) : Nat := ds.foldl (fun n c => 10 * n + (c.toNat - 48)) 0

/-- `std::stoul(s)`: white space, a sign, digits; the rest is ignored. A minus sign negates modulo 2^64. `none`: it throws. -/
def stoul (s : List Char) : Option Nat :=
  let s := s.dropWhile Char.isWhitespace
  let neg := s.head? == some '-'
  let s := if s.head? == some '-' || s.head? == some '+' then s.tail else s
  let ds := s.takeWhile Char.isDigit
  if ds.isEmpty then none
  else if digitsValue ds ≥ 2 ^ 64 then none
  else if neg then some ((2 ^ 64 - digitsValue ds) % 2 ^ 64)
  else some (digitsValue ds)

/-! ### One option -/

/-- The cases of the switch. -/
inductive CliKind
  /-- a set of options, e.g. CLIParser.cpp:150-157 -/
  | optionSet
  /-- exactly one option, e.g. :170-180 -/
  | oneOption
  /-- a list of options without a check, :568-572 -/
  | optionList
  /-- `stod` and a check, e.g. :189-201 -/
  | real (ok : Rat → Bool)
  /-- one number for three components, :420-429, :662-671; only the last component, :672-683 -/
  | reals
  | lastReal
  /-- `stoul`, a cast to `bits` bits and a lower bound, e.g. :261-273 -/
  | natural (bits min : Nat)
  /-- `stoul` without `try`, :726-729 -/
  | naturalNoCatch
  | numberSet
  /-- a switch that stores a constant, e.g. :253-256 -/
  | flag (value : Bool)
  /-- the text in lower case, e.g. :416-419 -/
  | lowerText
  /-- a file that must exist, e.g. :584-590 -/
  | file
  /-- the first of the texts that is contained in the argument, e.g. :298-313; the interaction type that is added -/
  | contains (table : List (List String × String)) (interactionType : Option String)
  | logLevel
  /-- `parseBoolOption`, :617-620 -/
  | boolOption
  /-- :689-700 -/
  | trueFalse
  /-- the same boundary in all dimensions, :684-688 -/
  | boundary
  /-- parsed before, :166-169, :815-824 -/
  | skip

/-- The table of options, in the order of CLIParser.cpp:46-109; names from MDFlexConfig.h. -/
def cliTable : List (String × CliKind) :=
  [ ("tuning-acquisition-function", .oneOption), -- :170-180
    ("boundary-type", .boundary), -- :684-688
    ("box-length", .real fun x => decide (0 ≤ x)), -- :189-201
    ("cell-size", .numberSet), -- :181-188
    ("fastParticlesThrow", .flag true), -- :514-517
    ("checkpoint", .skip), -- :166-169
    ("container", .optionSet), -- :202-209
    ("cutoff", .real fun _ => true), -- :210-218
    ("data-layout", .optionSet), -- :237-244
    ("data-layout-3b", .optionSet), -- :245-252
    ("deltaT", .real fun _ => true), -- :219-227
    ("sorting-threshold", .natural 64 0), -- :228-236
    ("distribution-mean", .reals), -- :420-429
    ("distribution-stddeviation", .reals), -- :662-671
    ("no-end-config", .flag false), -- :253-256
    ("no-progress-bar", .flag true), -- :257-260
    ("evidence-for-prediction", .natural 32 2), -- :285-297
    ("extrapolation-method", .oneOption), -- :274-284
    ("functor", .contains [(["avx"], "lj12_6_AVX"), (["sve"], "lj12_6_SVE"), (["lj", "lennard-jones"], "lj12_6")] (some "pairwise")), -- :298-313
    ("functor-3b", .contains [(["at", "axi"], "at")] (some "triwise")), -- :314-324
    ("particle-generator", .contains [(["grid"], "grid"), (["uni"], "uniform"), (["gaus"], "gaussian"), (["sp"], "sphere"), (["cl"], "closestPacked")] none), -- :325-342
    ("globalForce", .lastReal), -- :672-683
    ("iterations", .natural 64 1), -- :352-364
    ("load-balancer", .oneOption), -- :705-725
    ("load-balancing-interval", .naturalNoCatch), -- :726-729
    ("load-estimator", .optionSet), -- :560-567
    ("log-file", .lowerText), -- :416-419
    ("log-level", .logLevel), -- :378-415
    ("max-tuning-phases-without-test", .natural 32 1), -- :430-442
    ("mpi-tuning-max-difference-for-bucket", .real fun _ => true), -- :599-607
    ("mpi-tuning-weight-for-max-density", .real fun _ => true), -- :608-616
    ("newton3", .optionSet), -- :150-157
    ("newton3-3b", .optionSet), -- :158-165
    ("output-suffix", .lowerText), -- :701-704
    ("particle-spacing", .real fun _ => true), -- :535-543
    ("particles-per-dimension", .natural 64 0), -- :443-451
    ("particles-total", .natural 64 0), -- :452-460
    ("relative-blacklist-range", .real fun x => decide (1 ≤ x ∨ x = 0)), -- :474-486
    ("relative-optimum-range", .real fun x => decide (1 ≤ x)), -- :461-473
    ("rule-filename", .file), -- :584-590
    ("fuzzy-rule-filename", .file), -- :591-598
    ("selector-strategy", .oneOption), -- :647-657
    ("traversal", .optionSet), -- :544-551
    ("traversal-3b", .optionSet), -- :552-559
    ("tuning-interval", .natural 32 1), -- :365-377
    ("tuning-max-evidence", .natural 32 1), -- :261-273
    ("tuning-metric", .oneOption), -- :573-583
    ("tuning-phases", .natural 64 0), -- :487-495
    ("tuning-samples", .natural 32 1), -- :518-530
    ("tuning-strategies", .optionList), -- :568-572
    ("use-LOESS-smoothening", .flag false), -- :531-534
    ("thermostat", .boolOption), -- :617-620
    ("use-tuning-logger", .trueFalse), -- :689-700
    ("verlet-cluster-size", .natural 32 0), -- :496-504
    ("verlet-rebuild-frequency", .natural 32 0), -- :621-629
    ("verlet-skin-radius-per-timestep", .real fun _ => true), -- :505-513
    ("vtk-filename", .lowerText), -- :630-633
    ("vtk-output-folder", .lowerText), -- :634-637
    ("vtk-write-frequency", .natural 64 0), -- :638-646
    ("yaml-filename", .skip) ] -- :815-824

/-- `strArg.find(text) != npos`. -/
def containsText (s t : List Char) : Bool :=
  match s with
  | [] => t.isEmpty
  | c :: r => t.isPrefixOf (c :: r) || containsText r t

/-- The first character of the log level, CLIParser.cpp:378-415. -/
def logLevelOf (s : List Char) : Option String :=
  match s.head? with
  | some 't' => some "trace"
  | some 'd' => some "debug"
  | some 'i' => some "info"
  | some 'w' => some "warn"
  | some 'e' => some "err"
  | some 'c' => some "critical"
  | some 'o' => some "off"
  | _ => none

/-- What the case of an option does: the value that is assigned, if any, and whether the help message will be displayed. `arg` is the argument as typed, `lower` the
same in lower case (CLIParser.cpp:146-148). -/
def cliCase (env : CliEnv) (name : String) (arg lower : List Char) : CliKind → Outcome (Option CliVal × Bool)
  | .optionSet => (parseOptions (env.names name) lower).bind fun l => .ok (some (.opts l), l.isEmpty)
  | .oneOption => (parseOptions (env.names name) lower).bind fun l =>
    -- the elements of a `std::set`
    match l.eraseDups with
    | [] => .ub -- `*parsedOptions.begin()` of an empty set
    | [x] => .ok (some (.opts [x]), false)
    | x :: xs => .ok (some (.opts [(x :: xs).foldl min x]), true)
  | .optionList => (parseOptions (env.names name) lower).bind fun l => .ok (some (.opts l), false)
  | .real ok => match env.stod lower with
    | some x => .ok (some (.real x), !ok x)
    | none => .ok (none, true)
  | .reals => match env.stod lower with
    | some x => .ok (some (.reals x x x), false)
    | none => .ok (none, true)
  | .lastReal => match env.stod lower with
    | some x => .ok (some (.reals 0 0 x), false)
    | none => .ok (none, true)
  | .natural bits min => match stoul lower with
    | some n => .ok (some (.num (n % 2 ^ bits)), decide (n % 2 ^ bits < min))
    | none => .ok (none, true)
  | .naturalNoCatch => match stoul lower with
    | some n => .ok (some (.num (n % 2 ^ 32)), false)
    | none => .throws
  | .numberSet => .ok (some (.numbers (env.numberSet lower)), (env.numberSet lower).isEmpty)
  | .flag b => .ok (some (.bool b), false)
  | .lowerText => .ok (some (.text lower), false)
  | .file => if env.fileExists arg then .ok (some (.text arg), false) else .throws
  | .contains table _ => match table.find? (fun e => e.1.any fun t => containsText lower t.toList) with
    | some e => .ok (some (.enum e.2), false)
    | none => .ok (none, true)
  | .logLevel => match logLevelOf lower with
    | some l => .ok (some (.enum l), false)
    | none => .ok (none, true)
  | .boolOption =>
    if lower ∈ ["on", "true", "enabled"].map String.toList then .ok (some (.bool true), false)
    else if lower ∈ ["off", "false", "disabled"].map String.toList then .ok (some (.bool false), false)
    else .throws
  | .trueFalse =>
    if lower = "true".toList then .ok (some (.bool true), false)
    else if lower = "false".toList then .ok (some (.bool false), false)
    else .ok (none, true)
  | .boundary => (parseOptionExact (env.names name) lower).bind fun b => .ok (some (.opts [b, b, b]), false)
  | .skip => .ok (none, false)

/-- The interaction type that is added whatever the argument is, CLIParser.cpp:311, 322. -/
def CliKind.interaction : CliKind → Option String
  | .contains _ i => i
  | _ => none

/-! ### The loop -/

/-- What `getopt_long` returns: an option of the table, `--help`, `--zsh-completions`, or `?`. -/
inductive CliArg
  | opt (name : String) (arg : List Char)
  | help
  | zsh
  | unknown

/-- `MDFlexConfig`: the options, `_interactionTypes` and the objects that have been read (with their parameters). -/
structure CliConfig where
  value : String → CliVal
  interactionTypes : List String
  objects : List (String × List CliVal)

/-- `exitCodes`, MDFlexParser.h. -/
inductive CliExit
  | success
  | parsingError
  | helpFlagFound
  | completionsFlagFound
deriving DecidableEq

/-- Assignment to an option. -/
def CliConfig.set (c : CliConfig) (name : String) (v : CliVal) : CliConfig := { c with value := fun o => if o = name then v else c.value o }

/-- `config.addInteractionType`. -/
def CliConfig.add (c : CliConfig) (i : Option String) : CliConfig := { c with interactionTypes := c.interactionTypes ++ i.toList }

/-- The result of one case. -/
def CliConfig.update (c : CliConfig) (name : String) (kind : CliKind) (v : Option CliVal) : CliConfig :=
  (match v with | some v => c.set name v | none => c).add kind.interaction

/-- The loop over the options, CLIParser.cpp:144-736. The Boolean is `displayHelp`. -/
def cliLoop (env : CliEnv) : List CliArg → CliConfig → Bool → Outcome (CliConfig × CliExit)
  | [], c, displayHelp => .ok (c, if displayHelp then .parsingError else .success)
  | .help :: _, c, _ => .ok (c, .helpFlagFound)
  | .zsh :: _, c, _ => .ok (c, .completionsFlagFound)
  | .unknown :: args, c, _ => cliLoop env args c true
  | .opt name arg :: args, c, displayHelp =>
    match cliTable.lookup name with
    | none => cliLoop env args c true
    | some kind => (cliCase env name arg (arg.map Char.toLower) kind).bind fun r => cliLoop env args (c.update name kind r.1) (displayHelp || r.2)

/-- The object created from options, CLIParser.cpp:745-784: the options whose values it gets. -/
def cliObject (c : CliConfig) : List (String × List CliVal) :=
  let get (names : List String) := names.map c.value
  match c.value "particle-generator" with
  | .enum "grid" => [("CubeGrid", get ["particles-per-dimension", "particle-spacing"])]
  | .enum "gaussian" => [("CubeGauss", get ["particles-total", "box-length", "distribution-mean", "distribution-stddeviation"])]
  | .enum "uniform" => [("CubeUniform", get ["particles-total", "box-length"])]
  | .enum "sphere" => [("Sphere", get ["particles-per-dimension", "particle-spacing"])]
  | .enum "closestPacked" => [("CubeClosestPacked", get ["particle-spacing", "box-length"])]
  | _ => []

/-- `CLIParser::parseInput`, CLIParser.cpp:29-792. -/
def cliParseInput (env : CliEnv) (args : List CliArg) (c : CliConfig) : Outcome (CliConfig × CliExit) :=
  (cliLoop env args c false).bind fun r =>
    match r.2 with
    | .helpFlagFound => .ok r
    | .completionsFlagFound => .ok r
    | e => .ok (if r.1.value "checkpoint" = .text [] ∧ r.1.objects = [] then { r.1 with objects := cliObject r.1 } else r.1, e)

/-- `inputFilesPresent`, CLIParser.cpp:794-829. -/
def cliInputFiles (env : CliEnv) : List CliArg → CliConfig → Outcome CliConfig
  | [], c => .ok c
  | .opt name arg :: args, c =>
    if name = "checkpoint" ∨ name = "yaml-filename" then
      if env.fileExists arg then cliInputFiles env args (c.set name (.text arg)) else .throws
    else cliInputFiles env args c
  | _ :: args, c => cliInputFiles env args c

/-- `MDFlexParser::parseInput`, MDFlexParser.cpp:9-49; `yaml` is `YamlParser::parseYamlFile`: whether it succeeded, and the new configuration. -/
def mdFlexParse (env : CliEnv) (yaml : CliConfig → Outcome (Bool × CliConfig)) (args : List CliArg) (c : CliConfig) : Outcome (CliConfig × CliExit) :=
  (cliInputFiles env args c).bind fun c =>
    if c.value "yaml-filename" ≠ .text [] then (yaml c).bind fun r => if r.1 then cliParseInput env args r.2 else .ok (r.2, .parsingError)
    else cliParseInput env args c

end Verif
