import Mathlib.Data.List.Forall2
import Verif.Spec.YamlParser
import Verif.Spec.CliParser
import Verif.Model.EndConfig
/-!
When what md-flexible prints can be read again.
-/
namespace Verif

/-- The number is read as it is printed. -/
def PrintEnv.Digits (env : PrintEnv) (x : Rat) : Prop := env.asReal (env.showReal x) = some x

/-- What yaml-cpp and the tables of names need to satisfy. -/
structure PrintEnv.Exact (env : PrintEnv) : Prop where
  nat : ∀ n : Nat, env.asInt (env.showNat n) = some (n : Int)
  true_ : env.asBool "true".toList = some true
  false_ : env.asBool "false".toList = some false
  emit : ∀ t, env.emit (.scalar t) = t
  /-- Names are different also in lower case. -/
  names : ∀ o, ((env.names o).map fun x => x.2.map Char.toLower).Nodup
  /-- Options have one name. -/
  options : ∀ o, ((env.names o).map Prod.fst).Nodup
  /-- Names are words. -/
  words : ∀ o, ∀ x ∈ env.names o, x.2 ≠ [] ∧ x.2 ≠ "all".toList ∧ ∀ ch ∈ x.2, ch ∉ [' ', ',', ';', '|', '/']

/-- A value of an option that takes options of AutoPas. -/
def PrintEnv.Named (env : PrintEnv) (o : String) (l : List Nat) : Prop := ∀ i ∈ l, i ∈ (env.names o).map Prod.fst

/-- Every option has a value that an input file can give it, with few enough digits to be printed exactly. -/
structure PrintEnv.Regular (env : PrintEnv) (v : String → CliVal) : Prop where
  naturals : ∀ o bits min, (o, bits, min) ∈ fileNaturals → ∃ k, v o = .num k ∧ min ≤ k ∧ k < 2 ^ (bits - 1)
  counts : ∀ o min, (o, min) ∈ [("sorting-threshold", 0), ("vtk-write-frequency", 1), ("thermostatInterval", 1)] → ∃ k, v o = .num k ∧ min ≤ k ∧ k < 2 ^ 64
  reals : ∀ o ok, (o, ok) ∈ fileReals → ∃ x, v o = .real x ∧ ok x ∧ env.Digits x
  temperatures : ∀ o ∈ ["initialTemperature", "targetTemperature", "deltaTemperature"], ∃ x, v o = .real x ∧ env.Digits x
  vectors : ∀ o ∈ fileVectors, ∃ x y z, v o = .reals x y z ∧ env.Digits x ∧ env.Digits y ∧ env.Digits z
  bools : ∀ o ∈ "no-end-config" :: "addBrownianMotion" :: fileBools, ∃ b, v o = .bool b
  texts : ∀ o e, (o, e) ∈ fileTexts → ∃ t, v o = .text t
  /-- The texts that are printed even if they are empty. -/
  given : ∀ o ∈ ["output-suffix", "rule-filename", "fuzzy-rule-filename"], v o ≠ .text []
  sets : ∀ o ∈ setOptions, ∃ l, v o = .opts l ∧ l ≠ [] ∧ env.Named o l
  strategies : ∃ l, v "tuning-strategies" = .opts l ∧ env.Named "tuning-strategies" l
  choices : ∀ o ∈ fileChoices, ∃ i, v o = .opts [i] ∧ env.Named o [i]
  boundaries : ∃ x y z, v "boundary-type" = .opts [x, y, z] ∧ env.Named "boundary-type" [x, y, z]
  dimensions : ∃ x y z : Bool, v "subdivide-dimension" = .opts [x.toNat, y.toNat, z.toNat]
  cells : ∃ l, v "cell-size" = .numbers l ∧ l ≠ [] ∧ env.numberSet ((l.map env.showReal).intersperse ", ".toList).flatten = l
  level : ∃ s ∈ ["trace", "debug", "info", "warn", "err", "critical", "off"], v "log-level" = .enum s

/-- A parameter of an object of the given type that is printed exactly. -/
def PrintEnv.RegularParam (env : PrintEnv) : YamlParam → CliVal → Prop
  | .real, v => ∃ x, v = .real x ∧ env.Digits x
  | .real3, v => ∃ x y z, v = .reals x y z ∧ env.Digits x ∧ env.Digits y ∧ env.Digits z
  | .natural, v => ∃ k, v = .num k ∧ k < 2 ^ 64
  | .natural3, v => ∃ x y z, v = .opts [x, y, z] ∧ x < 2 ^ 64 ∧ y < 2 ^ 64 ∧ z < 2 ^ 64

/-- An object with all its parameters. -/
def PrintEnv.RegularObject (env : PrintEnv) (o : String × List CliVal) : Prop :=
  ∃ params, objectParams.lookup o.1 = some params ∧ List.Forall₂ env.RegularParam (params.map Prod.snd) o.2

/-- The file without the two blocks of the interactions. -/
def withoutInteractions (file : List (String × Yaml)) : List (String × Yaml) := file.filter fun p => p.1 ≠ "PairwiseInteraction" ∧ p.1 ≠ "ThreeBodyInteraction"

/-- The options that are never printed outside the two blocks. -/
def neverPrinted : List String :=
  ["functor", "functor-3b", "traversal", "traversal-3b", "data-layout", "data-layout-3b", "newton3", "newton3-3b", "load-estimator", "log-file", "vtk-output-folder"]

/-- The sites as the parser stores them. -/
def readSites (sites : List (Rat × Rat × Rat × Rat)) : List YamlSite := sites.map fun s => ⟨some s.1, s.2.1, s.2.2.1, s.2.2.2⟩

/-- The options that are always printed. -/
def alwaysPrinted : List String :=
  ["container", "fastParticlesThrow", "verlet-rebuild-frequency", "verlet-skin-radius-per-timestep", "tuning-strategies", "tuning-metric", "tuning-interval", "tuning-samples",
    "use-LOESS-smoothening", "cutoff", "box-min", "box-max", "cell-size", "deltaT", "pause-simulation-during-tuning", "sorting-threshold", "boundary-type", "Sites", "Objects",
    "use-tuning-logger", "output-suffix", "log-level", "no-end-config", "no-progress-bar", "load-balancer", "load-balancing-interval", "subdivide-dimension"]

/-- The options that belong to a tuning strategy (examples/md-flexible/README.md, tuning strategies' constructors). -/
def strategyOptions : List (String × List String) :=
  [ ("bayesian-Search", ["tuning-acquisition-function", "tuning-max-evidence"]), ("bayesian-cluster-Search", ["tuning-acquisition-function", "tuning-max-evidence"]),
    ("random-Search", ["tuning-max-evidence"]), ("mpi-divide-and-conquer", ["mpi-tuning-max-difference-for-bucket", "mpi-tuning-weight-for-max-density"]),
    ("predictive-tuning", ["relative-optimum-range", "max-tuning-phases-without-test", "evidence-for-prediction", "extrapolation-method"]),
    ("slow-config-filter", ["relative-blacklist-range"]), ("rule-based-tuning", ["rule-filename"]), ("fuzzy-tuning", ["fuzzy-rule-filename"]) ]

end Verif
