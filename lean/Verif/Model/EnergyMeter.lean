import Verif.Model.Outcome
import Mathlib.Algebra.Order.Ring.Rat
/-!
Energy measurements: /repo/src/autopas/utils/RaplMeter.h, RaplMeter.cpp (built with `AUTOPAS_ENABLE_ENERGY_MEASUREMENTS`, if not said otherwise), the calls in
/repo/src/autopas/tuning/AutoTuner.cpp:29, 321-359 and in /repo/src/autopas/LogicHandler.h:1066-1101. The operating system is an arbitrary record of answers.
Integers are unbounded, doubles rational; the exception handler throws. A read of fewer than 8 bytes is not modelled.
-/
namespace Verif

/-- The four kinds of counters, RaplMeter.h:85-91. -/
inductive EDomain
  | psys | pkg | cores | ram
deriving DecidableEq, Repr

/-- The order of the blocks in `reset`, RaplMeter.cpp:259-270. -/
def EDomain.all : List EDomain := [.psys, .pkg, .cores, .ram]

/-- What `fscanf("%d")` finds in `physical_package_id`: a number, something else (it returns 0), or nothing (it returns `EOF`). -/
inductive PkgFile
  | number (n : Int)
  | garbage
  | empty
deriving DecidableEq, Repr

/-- The machine. `topology` are the files of CPUs 0, 1, ...; `typeFile`: `none` if there is no such file, `some false` if it has no number; `config` is the number
of the event, 0 if there is none; `scale` is `none` if there is no such file, and `some 1` if it has no number; `permitted` is the check for permission;
`opens t d c` and `reads t d c`: whether the counter of CPU `c` can be opened and read at time `t`; `counter d c t` is the energy counted until time `t`. -/
structure EnergyOS where
  topology : List PkgFile
  typeFile : Option Bool
  config : EDomain → Nat
  scale : EDomain → Option Rat
  permitted : Bool
  opens : Nat → EDomain → Nat → Bool
  reads : Nat → EDomain → Nat → Bool
  counter : EDomain → Nat → Nat → Int

/-- An open counter: its descriptor, its CPU, and the time since which it counts. -/
structure EFd where
  id : Nat
  cpu : Nat
  since : Nat
deriving DecidableEq, Repr

/-- `RaplMeter`, RaplMeter.h:85-91. `none`: never set. `_type` plays no role. -/
structure Rapl where
  cpus : List Nat
  config : EDomain → Nat
  unit : EDomain → Option Rat
  raw : EDomain → Option Int
  fds : EDomain → List EFd

/-- A new meter. `_psys_config` and so on are not initialised either, and not used as long as there are no CPUs. -/
def Rapl.new : Rapl := ⟨[], fun _ => 0, fun _ => none, fun _ => none, fun _ => []⟩

/-- The process: the time, the next descriptor, the descriptors of open counters and the number of open files. -/
structure ESys where
  now : Nat
  nextFd : Nat
  opened : List Nat
  files : Nat
deriving DecidableEq, Repr

/-- Time goes by. -/
def ESys.pass (s : ESys) (n : Nat) : ESys := { s with now := s.now + n }

/-- `close` of all descriptors, RaplMeter.cpp:207-228 (the destructor) and :232-256; a new descriptor has a new number here. -/
def Rapl.closeAll (m : Rapl) (s : ESys) : ESys :=
  { s with opened := (EDomain.all.flatMap fun d => (m.fds d).map EFd.id).foldl (fun l i => l.erase i) s.opened }

/-- One `push_back(open_perf_event(...))`, RaplMeter.cpp:24-44, 259-270; `false`: an exception. -/
def Rapl.openOne (os : EnergyOS) (m : Rapl) (s : ESys) (c : Nat) (d : EDomain) : (Rapl × ESys) × Bool :=
  if os.opens s.now d c then
    (({ m with fds := fun e => if e = d then m.fds e ++ [⟨s.nextFd, c, s.now⟩] else m.fds e }, { s with nextFd := s.nextFd + 1, opened := s.opened ++ [s.nextFd] }), true)
  else ((m, s), false)

/-- The loop of `reset` over pairs of a CPU and a kind of counter, RaplMeter.cpp:258-271. -/
def Rapl.openLoop (os : EnergyOS) : List (Nat × EDomain) → Rapl → ESys → (Rapl × ESys) × Bool
  | [], m, s => ((m, s), true)
  | (c, d) :: r, m, s =>
    if m.config d = 0 then Rapl.openLoop os r m s
    else match m.openOne os s c d with
      | ((m', s'), true) => Rapl.openLoop os r m' s'
      | ((m', s'), false) => ((m', s'), false)

/-- `reset`, RaplMeter.cpp:230-273. -/
def Rapl.reset (os : EnergyOS) (m : Rapl) (s : ESys) : (Rapl × ESys) × Bool :=
  Rapl.openLoop os (m.cpus.flatMap fun c => EDomain.all.map fun d => (c, d)) { m with fds := fun _ => [] } (m.closeAll s)

/-- The loop over the descriptors of one kind in `sample`, RaplMeter.cpp:277-282, with `read_perf_event`, :46-56: the sum, and whether all could be read. -/
def readLoop (os : EnergyOS) (now : Nat) (d : EDomain) : List EFd → Int → Int × Bool
  | [], v => (v, true)
  | f :: r, v => if os.reads now d f.cpu then readLoop os now d r (v + (os.counter d f.cpu now - os.counter d f.cpu f.since)) else (v, false)

/-- The four blocks of `sample`, RaplMeter.cpp:275-305. -/
def Rapl.sampleLoop (os : EnergyOS) (now : Nat) : List EDomain → Rapl → Rapl × Bool
  | [], m => (m, true)
  | d :: r, m =>
    let v := readLoop os now d (m.fds d) 0
    let m' := { m with raw := fun e => if e = d then some v.1 else m.raw e }
    if v.2 then Rapl.sampleLoop os now r m' else (m', false)

/-- `sample`. -/
def Rapl.sample (os : EnergyOS) (m : Rapl) (s : ESys) : Rapl × Bool := m.sampleLoop os s.now EDomain.all

/-- The loop over the CPUs in `init`, RaplMeter.cpp:69-93, at CPU `i`; `pkg` is the variable `package`, which has no value at first. The result is whether it
came to the end, and `_cpus`. -/
def scanTopology : List PkgFile → Nat → Int → Option Int → List Nat → Outcome (Bool × List Nat)
  | [], _, _, _, cpus => .ok (true, cpus)
  | f :: fs, i, last, pkg, cpus =>
    match f, pkg with
    | .garbage, _ => .ok (false, cpus)
    | .empty, none => .ub
    | .empty, some n => if cpus = [] ∨ last < n then scanTopology fs (i + 1) n (some n) (cpus ++ [i]) else scanTopology fs (i + 1) last (some n) cpus
    | .number n, _ => if cpus = [] ∨ last < n then scanTopology fs (i + 1) n (some n) (cpus ++ [i]) else scanTopology fs (i + 1) last (some n) cpus

/-- How `init` ends. -/
inductive EInit
  | ready | notPossible | exception
deriving DecidableEq, Repr

/-- `throwIfRequired(...); return false;`, RaplMeter.cpp:61-67. -/
def EInit.fail (mustSucceed : Bool) : EInit := if mustSucceed then .exception else .notPossible

/-- `init`, RaplMeter.cpp:59-205. The files that are not closed are those of the topology and of the type, if they cannot be read (:81-84, :96-99). -/
def Rapl.init (os : EnergyOS) (mustSucceed : Bool) (m : Rapl) (s : ESys) : Outcome ((Rapl × ESys) × EInit) :=
  (scanTopology os.topology 0 0 none m.cpus).bind fun r =>
    let m1 := { m with cpus := r.2 }
    if !r.1 then .ok ((m1, { s with files := s.files + 1 }), EInit.fail mustSucceed)
    else match os.typeFile with
      | none => .ok ((m1, s), EInit.fail mustSucceed)
      | some false => .ok ((m1, { s with files := s.files + 1 }), EInit.fail mustSucceed)
      | some true =>
        let m2 := { m1 with config := os.config, unit := fun d => (os.scale d).or (m.unit d) }
        if !os.permitted then .ok ((m2, s), EInit.fail mustSucceed)
        else match m2.reset os s with
          | ((m3, s3), false) => .ok ((m3, s3), EInit.fail mustSucceed)
          | ((m3, s3), true) => match m3.sample os s3 with
            | (m4, false) => .ok ((m4, s3), EInit.fail mustSucceed)
            | (m4, true) => .ok ((m4, s3), .ready)

/-- `init` without `AUTOPAS_ENABLE_ENERGY_MEASUREMENTS`, RaplMeter.cpp:198-204. -/
def Rapl.initDisabled (mustSucceed : Bool) : EInit := EInit.fail mustSucceed

/-- `get_psys_energy` and so on, RaplMeter.cpp:307-310; reading what was never set is undefined behaviour. -/
def Rapl.energy (m : Rapl) (d : EDomain) : Outcome Rat :=
  match m.unit d, m.raw d with
  | some u, some r => .ok (u * r)
  | _, _ => .ub

/-- `get_total_energy`, RaplMeter.cpp:312-317. -/
def Rapl.total (m : Rapl) : Outcome Int :=
  match m.raw .psys with
  | none => .ub
  | some p => if p > 0 then .ok p else match m.raw .pkg, m.raw .ram with
    | some a, some b => .ok (a + b)
    | _, _ => .ub

/-- The part of `AutoTuner` that measures energy; `byEnergy` is whether the tuning metric is energy. -/
structure ETuner where
  meter : Rapl
  sys : ESys
  possible : Bool
  byEnergy : Bool

/-- What `LogicHandler` keeps of the energy, LogicHandler.h:1092-1101: `none` if it could not be measured (NaN, or 0 for the total). -/
structure EMeasurement where
  possible : Bool
  psys : Option Rat
  pkg : Option Rat
  ram : Option Rat
  total : Option Int
deriving DecidableEq, Repr

/-- The constructor of `AutoTuner`, AutoTuner.cpp:29, 321-324; `enabled` is whether measuring is compiled in. -/
def ETuner.new (enabled : Bool) (os : EnergyOS) (byEnergy : Bool) (s : ESys) : Outcome ETuner :=
  if enabled then (Rapl.new.init os byEnergy s).bind fun r => match r.2 with
    | .ready => .ok ⟨r.1.1, r.1.2, true, byEnergy⟩
    | .notPossible => .ok ⟨r.1.1, r.1.2, false, byEnergy⟩
    | .exception => .throws
  else match Rapl.initDisabled byEnergy with
    | .exception => .throws
    | _ => .ok ⟨Rapl.new, s, false, byEnergy⟩

/-- `resetEnergy`, AutoTuner.cpp:326-343. -/
def ETuner.resetEnergy (os : EnergyOS) (t : ETuner) : Outcome ETuner :=
  if t.possible then
    match t.meter.reset os t.sys with
    | ((m, s), true) => .ok { t with meter := m, sys := s }
    | ((m, s), false) => if t.byEnergy then .throws else .ok { t with meter := m, sys := s, possible := false }
  else .ok t

/-- `sampleEnergy`, AutoTuner.cpp:345-359, up to the values that it returns. -/
def ETuner.sampleStep (os : EnergyOS) (t : ETuner) : Outcome ETuner :=
  if t.possible then
    match t.meter.sample os t.sys with
    | (m, true) => .ok { t with meter := m }
    | (m, false) => if t.byEnergy then .throws else .ok { t with meter := m, possible := false }
  else .ok t

/-- The energy of one iteration that takes `duration`, LogicHandler.h:1066-1101. -/
def ETuner.iteration (os : EnergyOS) (t : ETuner) (duration : Nat) : Outcome (ETuner × EMeasurement) :=
  (t.resetEnergy os).bind fun t1 =>
    (({ t1 with sys := t1.sys.pass duration } : ETuner).sampleStep os).bind fun t2 =>
      (t2.meter.energy .psys).bind fun e1 => (t2.meter.energy .pkg).bind fun e2 => (t2.meter.energy .ram).bind fun e3 => t2.meter.total.bind fun e4 =>
        .ok (t2, if t1.possible then ⟨true, some e1, some e2, some e3, some e4⟩ else ⟨false, none, none, none, none⟩)

end Verif
