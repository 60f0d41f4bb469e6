import Verif.Model.TuningLog
import Verif.Props.C49
import Verif.Spec.Checkpoint
/-! Logs of tuning and what replaying them should find. -/
namespace Verif.Spec.TuningLog

/-- All names of options are good (C49). -/
structure GoodTables (t : OptionTables) : Prop where
  container : GoodNames t.container
  traversal : GoodNames t.traversal
  loadEstimator : GoodNames t.loadEstimator
  dataLayout : GoodNames t.dataLayout
  newton3 : GoodNames t.newton3
  interactionType : GoodNames t.interactionType

/-- The option has a name. -/
def Named (names : List (Nat × List Char)) (o : Nat) : Prop := ∃ x ∈ names, x.1 = o

/-- A configuration of known options, whose cell size factor has at most six digits after the decimal point. -/
structure Writable (t : OptionTables) (c : Configuration Rat) : Prop where
  container : Named t.container c.container
  traversal : Named t.traversal c.traversal
  loadEstimator : Named t.loadEstimator c.loadEstimator
  dataLayout : Named t.dataLayout c.dataLayout
  newton3 : Named t.newton3 c.newton3
  interactionType : Named t.interactionType c.interactionType
  cellSizeFactor : ∃ n : Int, c.cellSizeFactor * 10 ^ 6 = n

/-- A value of the live info that fits its type. -/
def GoodValue (t : OptionTables) : InfoValue → Prop
  | .bool _ => True
  | .double _ => True
  | .size n => n < 2 ^ 64
  | .option kind o => Named (t.info kind) o

/-- Live info whose names are different words. -/
structure GoodInfos (t : OptionTables) (infos : List (List Char × InfoValue)) : Prop where
  number : infos.length < 2 ^ 64
  distinct : (infos.map (·.1)).Nodup
  words : ∀ x ∈ infos, x.1 ≠ [] ∧ ∀ c ∈ x.1, isSpaceChar c = false
  values : ∀ x ∈ infos, GoodValue t x.2

/-- An entry that the tuner can produce. -/
def GoodEntry (t : OptionTables) : LogEntry → Prop
  | .evidence value iteration c => -2 ^ 63 ≤ value ∧ value < 2 ^ 63 ∧ iteration < 2 ^ 64 ∧ Writable t c
  | .tune => True
  | .reset _ => True
  | .liveInfo infos => GoodInfos t infos

/-- A copy of a value: the same up to rounding to six digits. -/
def SameValue : InfoValue → InfoValue → Prop
  | .double q, .double r => Checkpoint.Closest 6 q r
  | v, w => v = w

/-- A tuning phase of the log: a reset, then entries that are no resets. -/
structure Phase where
  start : Nat
  entries : List LogEntry

def Phase.Good (t : OptionTables) (p : Phase) : Prop := ∀ e ∈ p.entries, GoodEntry t e ∧ ∀ i, e ≠ .reset i

/-- All entries of a history of phases. -/
def history (ps : List Phase) : List LogEntry := ps.flatMap fun p => .reset p.start :: p.entries

/-- The last measurement of `c` in the phase. -/
def measured (p : Phase) (c : Configuration Rat) : Option Int :=
  (p.entries.filterMap fun e => match e with
    | .evidence v _ c' => if c' = c then some v else none
    | _ => none).getLast?

/-- `best` is the fastest configuration of `S` that was measured in the phase. -/
def FastestOf (S : List (Configuration Rat)) (p : Phase) (best : Configuration Rat) : Prop :=
  best ∈ S ∧ ∃ v, measured p best = some v ∧ ∀ c ∈ S, ∀ w, measured p c = some w → v ≤ w

/-- A strategy that leaves the queue as it is. -/
structure Passive {σ : Type} (st : Strategy σ (Configuration Rat)) : Prop where
  reset : ∀ s i p q ev, (st.reset s i p q ev).1.1 = q
  optimize : ∀ s q ev, (st.optimize s q ev).1.1 = q

/-- A call of a public function of the tuner. -/
inductive TunerCall (C : Type)
  | nextConfig
  | reject (config : C) (indefinitely : Bool)
  | measure (sample : Int) (rebuilt : Bool)
  | bump (needToWait : Bool)
  | forceRetune

/-- One call. -/
def TunerCall.run {σ C : Type} [DecidableEq C] (cfg : TunerCfg σ C) (t : Tuner σ C) : TunerCall C → Outcome (Tuner σ C)
  | .nextConfig => (t.getNextConfig cfg).bind fun r => .ok r.1
  | .reject c b => (t.rejectConfig cfg c b).bind fun r => .ok r.1
  | .measure x b => t.addMeasurement cfg x b
  | .bump b => .ok (t.bump cfg b)
  | .forceRetune => .ok (t.forceRetuning cfg)

/-- Any calls, one after another. -/
def runCalls {σ C : Type} [DecidableEq C] (cfg : TunerCfg σ C) : Tuner σ C → List (TunerCall C) → Outcome (Tuner σ C)
  | t, [] => .ok t
  | t, c :: cs => (c.run cfg t).bind fun t => runCalls cfg t cs

/-- What the log says about `c`: values and iterations. -/
def loggedOf (log : List LogEntry) (c : Configuration Rat) : List (Int × Nat) :=
  log.filterMap fun e => match e with
    | .evidence v i c' => if c' = c then some (v, i) else none
    | _ => none

end Verif.Spec.TuningLog
