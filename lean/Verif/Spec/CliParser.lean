import Verif.Model.CliParser
/-!
What the command line of md-flexible means to a user.
-/
namespace Verif

/-- The arguments typed for one option, in the order of the command line. -/
def argsOf (o : String) : List CliArg → List (List Char)
  | [] => []
  | .opt name arg :: args => if name = o then arg :: argsOf o args else argsOf o args
  | _ :: args => argsOf o args

/-- `t` is `n` in decimal. -/
structure Numeral (t : List Char) (n : Nat) : Prop where
  nonempty : t ≠ []
  digits : ∀ c ∈ t, c ∈ "0123456789".toList
  value : n = t.foldl (fun m c => 10 * m + (c.toNat - '0'.toNat)) 0

/-- The options that take a natural number, with the number of bits of their type and the least number that is accepted. -/
def naturalOptions : List (String × Nat × Nat) :=
  [("sorting-threshold", 64, 0), ("evidence-for-prediction", 32, 2), ("iterations", 64, 1), ("max-tuning-phases-without-test", 32, 1), ("particles-per-dimension", 64, 0),
    ("particles-total", 64, 0), ("tuning-interval", 32, 1), ("tuning-max-evidence", 32, 1), ("tuning-phases", 64, 0), ("tuning-samples", 32, 1),
    ("verlet-cluster-size", 32, 0), ("verlet-rebuild-frequency", 32, 0), ("vtk-write-frequency", 64, 0)]

/-- The options that take a number, and the numbers that are accepted. -/
def realOptions : List (String × (Rat → Prop)) :=
  [("box-length", fun x => 0 ≤ x), ("cutoff", fun _ => True), ("deltaT", fun _ => True), ("mpi-tuning-max-difference-for-bucket", fun _ => True),
    ("mpi-tuning-weight-for-max-density", fun _ => True), ("particle-spacing", fun _ => True), ("relative-blacklist-range", fun x => 1 ≤ x ∨ x = 0),
    ("relative-optimum-range", fun x => 1 ≤ x), ("verlet-skin-radius-per-timestep", fun _ => True)]

/-- The options that take a list of options of AutoPas. -/
def setOptions : List String := ["container", "data-layout", "data-layout-3b", "load-estimator", "newton3", "newton3-3b", "traversal", "traversal-3b"]

/-- The options that take one option of AutoPas. -/
def choiceOptions : List String := ["tuning-acquisition-function", "extrapolation-method", "load-balancer", "selector-strategy", "tuning-metric"]

/-- The options that take a text. -/
def textOptions : List String := ["log-file", "output-suffix", "vtk-filename", "vtk-output-folder"]

/-- The documented names of the functors and generators (in lower case) and what they stand for. -/
def namedValues : List (String × String × String) :=
  [("functor", "lennard-jones", "lj12_6"), ("functor", "lennard-jones-avx", "lj12_6_AVX"), ("functor", "lennard-jones-sve", "lj12_6_SVE"),
    ("functor", "lennard-jones-globals", "lj12_6"), ("functor-3b", "axilrod-teller", "at"), ("particle-generator", "grid", "grid"),
    ("particle-generator", "uniform", "uniform"), ("particle-generator", "gaussian", "gaussian"), ("particle-generator", "sphere", "sphere"),
    ("particle-generator", "closestpacking", "closestPacked")]

/-- The object a generator creates, and the options that determine it. -/
def generatedObjects : List (String × String × List String) :=
  [("grid", "CubeGrid", ["particles-per-dimension", "particle-spacing"]),
    ("gaussian", "CubeGauss", ["particles-total", "box-length", "distribution-mean", "distribution-stddeviation"]),
    ("uniform", "CubeUniform", ["particles-total", "box-length"]),
    ("sphere", "Sphere", ["particles-per-dimension", "particle-spacing"]),
    ("closestPacked", "CubeClosestPacked", ["particle-spacing", "box-length"])]

/-- All options of the command line whose value is set by their last argument (the names of input files are read before). -/
def cliOptions : List String :=
  naturalOptions.map Prod.fst ++ realOptions.map Prod.fst ++ setOptions ++ choiceOptions ++ textOptions ++
    ["boundary-type", "cell-size", "fastParticlesThrow", "distribution-mean", "distribution-stddeviation", "no-end-config", "no-progress-bar", "functor", "functor-3b",
      "particle-generator", "globalForce", "load-balancing-interval", "log-level", "rule-filename", "fuzzy-rule-filename", "tuning-strategies", "use-LOESS-smoothening",
      "thermostat", "use-tuning-logger"]

end Verif
