import Verif.Model.YamlParser
/-!
Model of the file that md-flexible writes at the end of a simulation: main.cpp:49-64, `MDFlexConfig::to_string`, MDFlexConfig.cpp:209-446 (lines are of the latter),
`to_string` of the objects (/repo/examples/md-flexible/src/configuration/objects).

Simplified: the file is the tree of nodes that yaml-cpp reads from it. Texts contain no characters with a meaning in YAML; an empty text is read as a node without value.
Cell sizes are a finite set. One site per molecule.
-/
namespace Verif

/-- How values are printed. -/
structure PrintEnv extends YamlEnv where
  /-- `os << x` for a `double`: six digits. -/
  showReal : Rat → List Char
  /-- `os << n`. -/
  showNat : Nat → List Char

/-- A text in the file. -/
def PrintEnv.text (_ : PrintEnv) (t : List Char) : Yaml := if t = [] then .null else .scalar t

/-- `Option::to_string`, Option.h:64-78. -/
def PrintEnv.option (env : PrintEnv) (name : String) (o : Nat) : List Char :=
  match (env.names name).find? fun e => e.1 = o with
  | some e => e.2
  | none => "Unknown Option".toList

/-- `std::boolalpha`, :213. -/
def boolText (b : Bool) : List Char := if b then "true".toList else "false".toList

/-- The text printed for the functors, :300-317, 333-342, and `spdlog::level::to_string_view`, :435. -/
def enumText : String → List Char
  | "lj12_6" => "Lennard-Jones (12-6)".toList
  | "lj12_6_AVX" => "Lennard-Jones (12-6) AVX intrinsics".toList
  | "lj12_6_SVE" => "Lennard-Jones (12-6) SVE intrinsics".toList
  | "none" => "None selected".toList
  | "at" => "Axilrod-Teller".toList
  | "err" => "error".toList
  | "warn" => "warning".toList
  | s => s.toList

/-- `printOption`, :215-224. -/
def PrintEnv.value (env : PrintEnv) (name : String) (v : CliVal) : Yaml :=
  match v with
  | .bool b => .scalar (boolText b)
  | .num n => .scalar (env.showNat n)
  | .real x => .scalar (env.showReal x)
  | .reals x y z => .seq [.scalar (env.showReal x), .scalar (env.showReal y), .scalar (env.showReal z)]
  | .text t => env.text t
  | .numbers l => .seq (l.map fun x => .scalar (env.showReal x))
  | .opts l => if name = "subdivide-dimension" then .seq (l.map fun b => .scalar (boolText (b != 0)))
    else match l with
      | [o] => if name ∈ ["selector-strategy", "extrapolation-method", "tuning-metric", "tuning-acquisition-function", "load-balancer"] then .scalar (env.option name o)
        else .seq [.scalar (env.option name o)]
      | l => .seq (l.map fun o => .scalar (env.option name o))
  | .enum s => .scalar (enumText s)

/-- `value` of an option of the configuration. -/
def PrintEnv.entry (env : PrintEnv) (c : YamlConfig) (name : String) : String × Yaml := (name, env.value name (c.value name))

/-- The names of chosen options. -/
def PrintEnv.chosen (env : PrintEnv) (c : YamlConfig) (name : String) : List (List Char) :=
  match c.value name with
  | .opts l => l.map (env.option name)
  | _ => []

/-- A strategy of the list is used, :250-254. -/
def PrintEnv.uses (env : PrintEnv) (c : YamlConfig) (strategies : List String) : Bool :=
  (env.chosen c "tuning-strategies").any fun s => strategies.any fun t => s == t.toList

/-- The number of options chosen. -/
def YamlConfig.count (c : YamlConfig) (name : String) : Nat := match c.value name with | .opts l => l.length | _ => 0

/-- The parameters of an object as they are printed, e.g. CubeGrid.h:81-92, Object.h:100-107. -/
def printOrder : List (String × List String) :=
  [ ("CubeGrid", ["particles-per-dimension", "particle-spacing", "bottomLeftCorner", "velocity", "particle-type-id"]),
    ("CubeGauss", ["distribution-mean", "distribution-stddeviation", "numberOfParticles", "box-length", "bottomLeftCorner", "velocity", "particle-type-id"]),
    ("CubeUniform", ["numberOfParticles", "box-length", "bottomLeftCorner", "velocity", "particle-type-id"]),
    ("CubeClosestPacked", ["particle-spacing", "box-length", "bottomLeftCorner", "velocity", "particle-type-id"]),
    ("Sphere", ["center", "radius", "particle-spacing", "velocity", "particle-type-id"]) ]

/-- A parameter; numbers of particles per dimension are natural numbers. -/
def PrintEnv.param (env : PrintEnv) : CliVal → Yaml
  | .opts l => .seq (l.map fun n => .scalar (env.showNat n))
  | v => env.value "" v

/-- The lines of one object: the parameters are named as they are read (`yamlGenerators`). -/
def PrintEnv.object (env : PrintEnv) (gen : String) (params : List CliVal) : Yaml :=
  let named := (((yamlGenerators.lookup gen).getD []).map Prod.fst).zip params
  .map ((((printOrder.lookup gen).getD []).filterMap fun p => (named.lookup p).map fun v => (p, env.param v)))

/-- `printObjectCollection`, :391-407, for all generators: a line with the name of the generator for every object. -/
def PrintEnv.objects (env : PrintEnv) (objects : List (String × List CliVal)) : Yaml :=
  let lines := printOrder.flatMap fun g =>
    (objects.filter fun o => o.1 = g.1).zipIdx.map fun (o, i) => (o.1, Yaml.map [(String.ofList (env.showNat i), env.object o.1 o.2)])
  if lines = [] then .null else .map lines

/-- A configuration whose sites and objects are complete. -/
structure EndConfig where
  config : YamlConfig
  /-- mass, epsilon, sigma, nu of the site types -/
  sites : List (Rat × Rat × Rat × Rat)
  objects : List (String × List CliVal)

/-- The lines of the sites, :366-373. -/
def PrintEnv.sites (env : PrintEnv) (sites : List (Rat × Rat × Rat × Rat)) : Yaml :=
  if sites = [] then .null else
    .map (sites.zipIdx.map fun (s, i) => (String.ofList (env.showNat i), .map [("epsilon", .scalar (env.showReal s.2.1)), ("sigma", .scalar (env.showReal s.2.2.1)),
      ("nu", .scalar (env.showReal s.2.2.2)), ("mass", .scalar (env.showReal s.1))]))

/-- Prints if a condition holds. -/
def onlyIf (b : Bool) (l : List (String × Yaml)) : List (String × Yaml) := if b then l else []

/-- `MDFlexConfig::to_string`, :209-446. -/
def endConfigFile (env : PrintEnv) (e : EndConfig) : List (String × Yaml) :=
  let c := e.config
  let p := env.entry c
  [p "container", p "fastParticlesThrow", p "verlet-rebuild-frequency", p "verlet-skin-radius-per-timestep"] ++
  onlyIf ((env.chosen c "container").any fun n => containsText n "luster".toList) [p "verlet-cluster-size"] ++
  onlyIf (decide (c.count "container" > 1 ∨ c.count "traversal" > 1 ∨ c.count "data-layout" > 1)) [p "selector-strategy"] ++
  [p "tuning-strategies"] ++
  onlyIf (env.uses c ["bayesian-Search", "bayesian-cluster-Search"]) [p "tuning-acquisition-function"] ++
  onlyIf (env.uses c ["mpi-divide-and-conquer"]) [p "mpi-tuning-max-difference-for-bucket", p "mpi-tuning-weight-for-max-density"] ++
  [p "tuning-metric", p "tuning-interval", p "tuning-samples", p "use-LOESS-smoothening"] ++
  onlyIf (env.uses c ["random-Search", "bayesian-Search", "bayesian-cluster-Search"]) [p "tuning-max-evidence"] ++
  onlyIf (env.uses c ["predictive-tuning"]) [p "relative-optimum-range", p "max-tuning-phases-without-test", p "evidence-for-prediction", p "extrapolation-method"] ++
  onlyIf (env.uses c ["slow-config-filter"]) [p "relative-blacklist-range"] ++
  onlyIf (env.uses c ["rule-based-tuning"]) [p "rule-filename"] ++
  onlyIf (env.uses c ["fuzzy-tuning"]) [p "fuzzy-rule-filename"] ++
  onlyIf (c.interactionTypes.contains "pairwise") [("PairwiseInteraction", .map [p "functor", p "traversal", p "data-layout", p "newton3"])] ++
  onlyIf (c.interactionTypes.contains "triwise") [("ThreeBodyInteraction", .map [p "functor-3b", p "traversal-3b", p "data-layout-3b", p "newton3-3b"])] ++
  [p "cutoff", p "box-min", p "box-max", p "cell-size", p "deltaT", p "pause-simulation-during-tuning", p "sorting-threshold"] ++
  (if c.value "tuning-phases" ≠ .num 0 then [p "tuning-phases"] else [p "iterations"]) ++
  [p "boundary-type", ("Sites", env.sites e.sites), ("Objects", env.objects e.objects)] ++
  onlyIf (c.value "globalForce" ≠ .reals 0 0 0) [p "globalForce"] ++
  onlyIf (c.value "thermostat" = .bool true) [("thermostat", .map [p "initialTemperature", p "targetTemperature", p "deltaTemperature", p "thermostatInterval",
    p "addBrownianMotion"])] ++
  onlyIf (c.value "vtk-filename" ≠ .text []) [p "vtk-filename", p "vtk-write-frequency"] ++
  onlyIf (c.value "checkpoint" ≠ .text []) [p "checkpoint"] ++
  [p "use-tuning-logger", p "output-suffix", p "log-level",
    ("no-end-config", match c.value "no-end-config" with | .bool b => .scalar (boolText !b) | v => env.value "no-end-config" v),
    p "no-progress-bar", p "load-balancer", p "load-balancing-interval", p "subdivide-dimension"]

end Verif
