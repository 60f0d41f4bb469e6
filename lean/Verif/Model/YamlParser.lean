import Verif.Model.CliParser
/-!
Model of the input files of md-flexible: /repo/examples/md-flexible/src/configuration/YamlParser.{h,cpp} (lines are of the latter).

Simplified: a file is the tree that yaml-cpp (0.7.0) makes of it, with texts as keys. How texts become numbers and Booleans and how nodes are written by yaml-cpp is arbitrary
(`YamlEnv`). Error messages are only counted. Compiled for molecules with one site, with ALL.
-/
namespace Verif

/-- `YAML::Node`; `undefined`: a node that does not exist. -/
inductive Yaml
  | undefined
  | null
  | scalar (t : List Char)
  | seq (l : List Yaml)
  | map (l : List (String × Yaml))

/-- What the parser uses. -/
structure YamlEnv extends CliEnv where
  /-- `as<double>` of a scalar. -/
  asReal : List Char → Option Rat
  /-- The integer a scalar denotes. -/
  asInt : List Char → Option Int
  /-- `as<bool>` of a scalar. -/
  asBool : List Char → Option Bool
  /-- `os << node`. -/
  emit : Yaml → List Char

/-! ### yaml-cpp -/

/-- `node.as<T>()` for types read from scalars; `none`: it throws. -/
def Yaml.as {α : Type} (f : List Char → Option α) : Yaml → Option α
  | .scalar t => f t
  | _ => none

/-- `as<std::string>()` (yaml-cpp: node/impl.h). -/
def Yaml.asText : Yaml → Option (List Char)
  | .scalar t => some t
  | .null => some "null".toList
  | _ => none

/-- `as<int>()` or `as<long>()` with the given number of bits. -/
def YamlEnv.asSigned (env : YamlEnv) (bits : Nat) (t : List Char) : Option Int :=
  (env.asInt t).filter fun n => decide (-(2 ^ (bits - 1) : Int) ≤ n ∧ n < 2 ^ (bits - 1))

/-- `as<size_t>()`, `as<unsigned long>()`: negative numbers are refused (yaml-cpp: node/convert.h). -/
def YamlEnv.asUnsigned (env : YamlEnv) (t : List Char) : Option Nat :=
  ((env.asInt t).filter fun n => decide (0 ≤ n ∧ n < 2 ^ 64)).map Int.toNat

/-- `node[i]` on a constant node; an element that cannot be accessed is `undefined`, so that all access to it throws. -/
def Yaml.at (n : Yaml) (i : Nat) : Yaml :=
  match n with
  | .seq l => l.getD i .undefined
  | _ => .undefined

/-- `node[key]` on a constant node. -/
def Yaml.get (n : Yaml) (key : String) : Yaml :=
  match n with
  | .map l => (l.lookup key).getD .undefined
  | _ => .undefined

/-- Three elements `node[0]`, `node[1]`, `node[2]`. -/
def Yaml.three {α β : Type} (f : Yaml → Option α) (mk : α → α → α → β) (n : Yaml) : Option β := do
  let x ← f (n.at 0)
  let y ← f (n.at 1)
  let z ← f (n.at 2)
  return mk x y z

/-- The second components of an iteration over a node. -/
def Yaml.entries : Yaml → List Yaml
  | .map l => l.map Prod.snd
  | .seq l => l.map fun _ => .undefined
  | _ => []

/-- `ArrayUtils::to_string(node, ", ", {"", ""})`, ArrayUtils.h:102-114. -/
def YamlEnv.join (env : YamlEnv) (n : Yaml) : List Char :=
  (match n with
    | .seq l => l.map env.emit
    | .map l => l.map fun _ => env.emit .undefined
    | _ => ([] : List (List Char))).intersperse ", ".toList |>.flatten

/-- `parseSequenceOneElementExpected`, :10-20. -/
def YamlEnv.oneElement (env : YamlEnv) : Yaml → Option (List Char)
  | .seq [x] => some (env.emit x)
  | .seq _ => none
  | n => n.asText

/-! ### Keys -/

/-- The branches of the parser for single options. -/
inductive YamlKind
  /-- a set of options that must not be empty, e.g. :135-145 -/
  | optionSet
  /-- a list of options, :414-420 -/
  | optionList
  /-- exactly one option, e.g. :169-177 -/
  | oneOption
  | boundaries
  | real (ok : Rat → Bool)
  | reals
  | bools
  | numberSet
  /-- `as<int>` or `as<long>`, stored without sign, then compared with a lower bound, e.g. :161-168 -/
  | signed (bits min : Nat)
  /-- `as<size_t>` and a lower bound -/
  | unsigned (min : Nat)
  | bool
  /-- :266-271 -/
  | notBool
  | text (mayBeEmpty : Bool)
  | contains (table : List (List String × String)) (interactionType : String)
  | logLevel

/-- The keys with their branches, :135-582, 817-832. -/
def yamlTable : List (String × YamlKind) :=
  [ ("container", .optionSet), -- :135-145
    ("box-min", .reals), -- :146-150
    ("box-max", .reals), -- :151-155
    ("subdivide-dimension", .bools), -- :156-160
    ("load-balancing-interval", .signed 32 0), -- :161-168
    ("selector-strategy", .oneOption), -- :169-177
    ("boundary-type", .boundaries), -- :178-184
    ("cutoff", .real fun x => decide (0 < x)), -- :185-192
    ("cell-size", .numberSet), -- :193-202
    ("data-layout", .optionSet), -- :203-211
    ("data-layout-3b", .optionSet), -- :212-220
    ("functor", .contains [(["avx"], "lj12_6_AVX"), (["sve"], "lj12_6_SVE"), (["lj", "lennard-jones"], "lj12_6")] "pairwise"), -- :221-236
    ("functor-3b", .contains [(["at", "axilrod-teller"], "at")] "triwise"), -- :237-248
    ("iterations", .signed 64 1), -- :249-257
    ("tuning-phases", .signed 64 0), -- :258-265
    ("no-end-config", .notBool), -- :266-271
    ("no-progress-bar", .bool), -- :272-276
    ("newton3", .optionSet), -- :277-285
    ("newton3-3b", .optionSet), -- :286-294
    ("deltaT", .real fun _ => true), -- :295-299
    ("pause-simulation-during-tuning", .bool), -- :300-304
    ("sorting-threshold", .unsigned 0), -- :305-309
    ("traversal", .optionSet), -- :310-320
    ("traversal-3b", .optionSet), -- :321-331
    ("load-estimator", .optionSet), -- :332-342
    ("tuning-interval", .signed 32 1), -- :343-350
    ("tuning-samples", .signed 32 1), -- :351-358
    ("use-LOESS-smoothening", .bool), -- :359-363
    ("tuning-max-evidence", .signed 32 1), -- :364-371
    ("relative-optimum-range", .real fun x => decide (1 ≤ x)), -- :372-379
    ("max-tuning-phases-without-test", .signed 32 1), -- :380-387
    ("relative-blacklist-range", .real fun x => decide (1 ≤ x ∨ x = 0)), -- :388-396
    ("evidence-for-prediction", .signed 32 2), -- :397-404
    ("extrapolation-method", .oneOption), -- :405-413
    ("tuning-strategies", .optionList), -- :414-420
    ("tuning-metric", .oneOption), -- :421-428
    ("mpi-tuning-max-difference-for-bucket", .real fun _ => true), -- :429-433
    ("mpi-tuning-weight-for-max-density", .real fun _ => true), -- :434-438
    ("tuning-acquisition-function", .oneOption), -- :439-446
    ("log-level", .logLevel), -- :447-484
    ("checkpoint", .text false), -- :485-492
    ("log-file", .text false), -- :493-500
    ("rule-filename", .text false), -- :501-508
    ("fuzzy-rule-filename", .text false), -- :509-516
    ("verlet-rebuild-frequency", .signed 32 1), -- :517-525
    ("verlet-skin-radius-per-timestep", .real fun _ => true), -- :526-530
    ("fastParticlesThrow", .bool), -- :531-535
    ("verlet-cluster-size", .signed 32 0), -- :536-543
    ("vtk-filename", .text false), -- :544-551
    ("vtk-output-folder", .text false), -- :552-559
    ("vtk-write-frequency", .unsigned 1), -- :560-567
    ("use-tuning-logger", .bool), -- :568-572
    ("output-suffix", .text true), -- :573-577
    ("globalForce", .reals), -- :578-582
    ("load-balancer", .oneOption) ] -- :817-832

/-- An exception if there is no value. -/
def Outcome.ofOption {α : Type} : Option α → Outcome α
  | some a => .ok a
  | none => .throws

/-- One branch: the value that is assigned, and whether an exception follows. `throws`: an exception before the assignment. -/
def yamlCase (env : YamlEnv) (name : String) (n : Yaml) : YamlKind → Outcome (CliVal × Bool)
  | .optionSet => (parseOptions (env.names name) (env.join n)).bind fun l => .ok (.opts l, l.isEmpty)
  | .optionList => (parseOptions (env.names name) (env.join n)).bind fun l => .ok (.opts l, false)
  | .oneOption => (Outcome.ofOption (env.oneElement n)).bind fun t => (parseOptions (env.names name) t).bind fun l =>
    match l with
    | [] => .ub -- `*parsedOptions.begin()` of an empty set
    | x :: xs => .ok (.opts [(x :: xs).foldl min x], false)
  | .boundaries => (Outcome.ofOption (n.three Yaml.asText fun x y z => (x, y, z))).bind fun r =>
    (parseOptionExact (env.names name) r.1).bind fun x => (parseOptionExact (env.names name) r.2.1).bind fun y =>
      (parseOptionExact (env.names name) r.2.2).bind fun z => .ok (.opts [x, y, z], false)
  | .real ok => (Outcome.ofOption (n.as env.asReal)).bind fun x => .ok (.real x, !ok x)
  | .reals => (Outcome.ofOption (n.three (Yaml.as env.asReal) CliVal.reals)).bind fun v => .ok (v, false)
  | .bools => (Outcome.ofOption (n.three (Yaml.as env.asBool) fun x y z => CliVal.opts ([x, y, z].map Bool.toNat))).bind fun v => .ok (v, false)
  | .numberSet => .ok (.numbers (env.numberSet (env.join n)), (env.numberSet (env.join n)).isEmpty)
  | .signed bits min => (Outcome.ofOption (n.as (env.asSigned bits))).bind fun i =>
    .ok (.num (i % 2 ^ bits).toNat, decide ((i % 2 ^ bits).toNat < min))
  | .unsigned min => (Outcome.ofOption (n.as env.asUnsigned)).bind fun i => .ok (.num i, decide (i < min))
  | .bool => (Outcome.ofOption (n.as env.asBool)).bind fun b => .ok (.bool b, false)
  | .notBool => (Outcome.ofOption (n.as env.asBool)).bind fun b => .ok (.bool !b, false)
  | .text mayBeEmpty => (Outcome.ofOption n.asText).bind fun t => .ok (.text t, !mayBeEmpty && t.isEmpty)
  | .contains table _ => (Outcome.ofOption n.asText).bind fun t =>
    (Outcome.ofOption (table.find? fun e => e.1.any fun s => containsText (t.map Char.toLower) s.toList)).bind fun e => .ok (.enum e.2, false)
  | .logLevel => (Outcome.ofOption n.asText).bind fun t => (Outcome.ofOption (logLevelOf (t.map Char.toLower))).bind fun l => .ok (.enum l, false)

/-- The interaction type that is added. -/
def YamlKind.interaction : YamlKind → List String
  | .contains _ i => [i]
  | _ => []

/-! ### Sites, objects, thermostat -/

/-- The parameters of a site type: entries of `massMap`, `epsilonMap`, `sigmaMap`, `nuMap`. `none`: not initialised. -/
structure YamlSite where
  mass : Option Rat
  epsilon : Rat
  sigma : Rat
  nu : Rat
deriving DecidableEq

/-- One site, :610-624; `parseComplexTypeValueSingle`, YamlParser.h:81-98: with an error, a required value stays uninitialised, others become zero. -/
def yamlSite (env : YamlEnv) (n : Yaml) : YamlSite :=
  ⟨(n.get "mass").as env.asReal, ((n.get "epsilon").as env.asReal).getD 0, ((n.get "sigma").as env.asReal).getD 0, ((n.get "nu").as env.asReal).getD 0⟩

/-- The loop over the sites, :583-624. The maps were cleared and are indexed by position, so that `addSiteType` etc. (MDFlexConfig.cpp:497-547) insert. -/
def yamlSites (env : YamlEnv) (n : Yaml) : List YamlSite := n.entries.map (yamlSite env)

/-- The types of the parameters of objects. -/
inductive YamlParam
  | real
  | real3
  | natural
  | natural3

/-- `parseComplexTypeValueSingle`, `parseComplexTypeValueSequence`, YamlParser.h:81-125; `none`: not (completely) initialised, and an error. -/
def yamlParam (env : YamlEnv) (n : Yaml) : YamlParam → Option CliVal
  | .real => (n.as env.asReal).map .real
  | .real3 => n.three (Yaml.as env.asReal) .reals
  | .natural => (n.as env.asUnsigned).map .num
  | .natural3 => n.three (Yaml.as env.asUnsigned) fun x y z => .opts [x, y, z]

/-- The generators and their parameters, :34-114, 704-750. -/
def yamlGenerators : List (String × List (String × YamlParam)) :=
  [ ("CubeGrid", [("velocity", .real3), ("particle-type-id", .natural), ("particles-per-dimension", .natural3), ("particle-spacing", .real), ("bottomLeftCorner", .real3)]),
    ("CubeGauss", [("velocity", .real3), ("particle-type-id", .natural), ("numberOfParticles", .natural), ("box-length", .real3), ("distribution-mean", .real3),
      ("distribution-stddeviation", .real3), ("bottomLeftCorner", .real3)]),
    ("CubeUniform", [("velocity", .real3), ("particle-type-id", .natural), ("numberOfParticles", .natural), ("box-length", .real3), ("bottomLeftCorner", .real3)]),
    ("Sphere", [("velocity", .real3), ("particle-type-id", .natural), ("center", .real3), ("radius", .real), ("particle-spacing", .real)]),
    ("CubeClosestPacked", [("velocity", .real3), ("particle-type-id", .natural), ("particle-spacing", .real), ("box-length", .real3), ("bottomLeftCorner", .real3)]) ]

/-- One object, e.g. :34-47. -/
def yamlObject (env : YamlEnv) (params : List (String × YamlParam)) (n : Yaml) : List (Option CliVal) := params.map fun p => yamlParam env (n.get p.1) p.2

/-- The objects of one generator, :704-756; whether there were errors. -/
def yamlGenerator (env : YamlEnv) (e : String × Yaml) : List (String × List (Option CliVal)) × Bool :=
  match yamlGenerators.lookup e.1 with
  | some params => (e.2.entries.map fun n => (e.1, yamlObject env params n), e.2.entries.any fun n => (yamlObject env params n).any Option.isNone)
  | none => ([], true)

/-- The loop over the generators, :676-757. The name of an element of a sequence cannot be read. -/
def yamlObjects (env : YamlEnv) : Yaml → List (String × List (Option CliVal)) × Bool
  | .map l => (l.flatMap fun e => (yamlGenerator env e).1, l.any fun e => (yamlGenerator env e).2)
  | .seq (_ :: _) => ([], true)
  | _ => ([], false)

/-- The parameters of the thermostat in the order in which they are read, :766-816. -/
def yamlThermostat : List (String × YamlKind) :=
  [("initialTemperature", .real fun _ => true), ("thermostatInterval", .unsigned 1), ("targetTemperature", .real fun _ => true), ("deltaTemperature", .real fun _ => true),
    ("addBrownianMotion", .bool)]

/-- The effect of a key: assignments in order, interaction types, and what replaces sites and objects. -/
structure YamlEffect where
  values : List (String × CliVal) := []
  interactions : List String := []
  sites : Option (List YamlSite) := none
  objects : Option (List (String × List (Option CliVal))) := none

/-- Parameters of the thermostat: a parameter that does not exist ends the loop (`Mark()` throws). -/
def yamlThermostatLoop (env : YamlEnv) (n : Yaml) : List (String × YamlKind) → Outcome (List (String × CliVal) × Bool)
  | [] => .ok ([], false)
  | (p, kind) :: ps =>
    match n.get p with
    | .undefined => .ok ([], true)
    | m =>
      match yamlCase env p m kind with
      | .ok (v, bad) => (yamlThermostatLoop env n ps).bind fun r => .ok ((p, v) :: r.1, bad || r.2)
      | .throws => (yamlThermostatLoop env n ps).bind fun r => .ok (r.1, true)
      | .ub => .ub
      | .diverges => .diverges

/-- One key, :130-842; whether an error was reported. -/
def yamlEntry (env : YamlEnv) (key : String) (n : Yaml) : Outcome (YamlEffect × Bool) :=
  match yamlTable.lookup key with
  | some kind =>
    match yamlCase env key n kind with
    | .ok (v, bad) => .ok ({ values := [(key, v)], interactions := kind.interaction }, bad)
    | .throws => .ok ({}, true)
    | .ub => .ub
    | .diverges => .diverges
  | none =>
    if key = "Sites" then .ok ({ sites := some (yamlSites env n) }, false)
    else if key = "Molecules" then .ok ({}, false) -- only a warning, :667-675
    else if key = "Objects" then .ok ({ objects := some (yamlObjects env n).1 }, (yamlObjects env n).2)
    else if key = "thermostat" then
      (yamlThermostatLoop env n yamlThermostat).bind fun r => .ok ({ values := ("thermostat", .bool true) :: r.1 }, r.2)
    else .ok ({}, true)

/-! ### The file -/

/-- The part of `MDFlexConfig` that is read from files. -/
structure YamlConfig where
  value : String → CliVal
  interactionTypes : List String
  sites : List YamlSite
  objects : List (String × List (Option CliVal))

/-- Performs an effect. -/
def YamlConfig.apply (c : YamlConfig) (e : YamlEffect) : YamlConfig where
  value := e.values.foldl (fun f p o => if o = p.1 then p.2 else f o) c.value
  interactionTypes := c.interactionTypes ++ e.interactions
  sites := e.sites.getD c.sites
  objects := e.objects.getD c.objects

/-- The loop over the keys, :129-844; `node[key]` is the first node with this key. -/
def yamlLoop (env : YamlEnv) (file : List (String × Yaml)) : List (String × Yaml) → YamlConfig → Bool → Outcome (YamlConfig × Bool)
  | [], c, errors => .ok (c, errors)
  | (key, _) :: l, c, errors => (yamlEntry env key ((file.lookup key).getD .undefined)).bind fun r => yamlLoop env file l (c.apply r.1) (errors || r.2)

/-- `parseYamlFile`, :116-855. -/
def parseYamlFile (env : YamlEnv) (file : List (String × Yaml)) (c : YamlConfig) : Outcome (YamlConfig × Bool) :=
  (yamlLoop env file file c false).bind fun r => .ok (r.1, !r.2)

end Verif
