import Verif.Model.YamlParser
/-!
What an input file of md-flexible means to a user.
-/
namespace Verif

/-- The keys of input files (/repo/examples/md-flexible/input/AllOptions.yaml). -/
def fileKeys : List String :=
  ["container", "box-min", "box-max", "subdivide-dimension", "load-balancing-interval", "selector-strategy", "boundary-type", "cutoff", "cell-size", "data-layout",
    "data-layout-3b", "functor", "functor-3b", "iterations", "tuning-phases", "no-end-config", "no-progress-bar", "newton3", "newton3-3b", "deltaT",
    "pause-simulation-during-tuning", "sorting-threshold", "traversal", "traversal-3b", "load-estimator", "tuning-interval", "tuning-samples", "use-LOESS-smoothening",
    "tuning-max-evidence", "relative-optimum-range", "max-tuning-phases-without-test", "relative-blacklist-range", "evidence-for-prediction", "extrapolation-method",
    "tuning-strategies", "tuning-metric", "mpi-tuning-max-difference-for-bucket", "mpi-tuning-weight-for-max-density", "tuning-acquisition-function", "log-level",
    "checkpoint", "log-file", "rule-filename", "fuzzy-rule-filename", "verlet-rebuild-frequency", "verlet-skin-radius-per-timestep", "fastParticlesThrow",
    "verlet-cluster-size", "vtk-filename", "vtk-output-folder", "vtk-write-frequency", "use-tuning-logger", "output-suffix", "globalForce", "load-balancer", "Sites",
    "Molecules", "Objects", "thermostat"]

/-- The options given below the key of the thermostat. -/
def thermostatOptions : List String := ["initialTemperature", "thermostatInterval", "targetTemperature", "deltaTemperature", "addBrownianMotion"]

/-- The options that take a natural number and are read as numbers with sign: the number of bits and the least number. -/
def fileNaturals : List (String × Nat × Nat) :=
  [("load-balancing-interval", 32, 0), ("iterations", 64, 1), ("tuning-phases", 64, 0), ("tuning-interval", 32, 1), ("tuning-samples", 32, 1),
    ("tuning-max-evidence", 32, 1), ("max-tuning-phases-without-test", 32, 1), ("evidence-for-prediction", 32, 2), ("verlet-rebuild-frequency", 32, 1),
    ("verlet-cluster-size", 32, 0)]

/-- The options that take a real number, and the numbers that are accepted. -/
def fileReals : List (String × (Rat → Prop)) :=
  [("cutoff", fun x => 0 < x), ("deltaT", fun _ => True), ("relative-optimum-range", fun x => 1 ≤ x), ("relative-blacklist-range", fun x => 1 ≤ x ∨ x = 0),
    ("mpi-tuning-max-difference-for-bucket", fun _ => True), ("mpi-tuning-weight-for-max-density", fun _ => True), ("verlet-skin-radius-per-timestep", fun _ => True)]

/-- The options that take a text, and whether it may be empty. -/
def fileTexts : List (String × Bool) :=
  [("checkpoint", false), ("log-file", false), ("rule-filename", false), ("fuzzy-rule-filename", false), ("vtk-filename", false), ("vtk-output-folder", false),
    ("output-suffix", true)]

/-- The options that take a Boolean. -/
def fileBools : List String := ["no-progress-bar", "pause-simulation-during-tuning", "use-LOESS-smoothening", "fastParticlesThrow", "use-tuning-logger"]

/-- The options that take one option of AutoPas. -/
def fileChoices : List String := ["selector-strategy", "extrapolation-method", "tuning-metric", "tuning-acquisition-function", "load-balancer"]

/-- Three real numbers in brackets. -/
def fileVectors : List String := ["box-min", "box-max", "globalForce"]

/-- The parameters an object of a generator needs. -/
def objectParams : List (String × List (String × YamlParam)) :=
  let common := [("velocity", YamlParam.real3), ("particle-type-id", .natural)]
  [ ("CubeGrid", common ++ [("particles-per-dimension", .natural3), ("particle-spacing", .real), ("bottomLeftCorner", .real3)]),
    ("CubeGauss", common ++ [("numberOfParticles", .natural), ("box-length", .real3), ("distribution-mean", .real3), ("distribution-stddeviation", .real3),
      ("bottomLeftCorner", .real3)]),
    ("CubeUniform", common ++ [("numberOfParticles", .natural), ("box-length", .real3), ("bottomLeftCorner", .real3)]),
    ("Sphere", common ++ [("center", .real3), ("radius", .real), ("particle-spacing", .real)]),
    ("CubeClosestPacked", common ++ [("particle-spacing", .real), ("box-length", .real3), ("bottomLeftCorner", .real3)]) ]

/-- The parameter has a value in the file. -/
def ParamIs (env : YamlEnv) (n : Yaml) : YamlParam → CliVal → Prop
  | .real, v => ∃ t x, n = .scalar t ∧ env.asReal t = some x ∧ v = .real x
  | .natural, v => ∃ t, ∃ k : Nat, n = .scalar t ∧ env.asInt t = some (k : Int) ∧ v = .num k
  | .real3, v => ∃ a b c x y z rest, n = .seq (.scalar a :: .scalar b :: .scalar c :: rest) ∧ env.asReal a = some x ∧ env.asReal b = some y ∧ env.asReal c = some z ∧
    v = .reals x y z
  | .natural3, v => ∃ a b c, ∃ x y z : Nat, ∃ rest, n = .seq (.scalar a :: .scalar b :: .scalar c :: rest) ∧ env.asInt a = some (x : Int) ∧ env.asInt b = some (y : Int) ∧
    env.asInt c = some (z : Int) ∧ v = .opts [x, y, z]

/-- All objects that a node `Objects` lists, with their generator. -/
def listedObjects (l : List (String × Yaml)) : List (String × Yaml) := l.flatMap fun e => e.2.entries.map fun n => (e.1, n)

end Verif
