import Verif.Model.ActiveHarmony
import Verif.Props.C38
import Mathlib.Algebra.Order.Field.Rat
import Mathlib.Tactic.NormNum
/-!
# C125 — tuning with Active Harmony tests every configuration, whatever the server suggests

The strategy never removes or reorders configurations (`C125_keeps_queue`), so a run of the tuner proposes the same configurations as full search
(`C125_full_search`). That is also its defect: nothing the server suggests has an effect on what is tested (`C125_violated_no_effect`).

Calls need not return: with a local server that has converged to a configuration that is not in the queue the loop never ends (`C125_violated_diverges`), and
this happens for ordinary search spaces because fetched configurations need not belong to the search space: the container is the first one the traversal is
compatible with, not one of those allowed (`C125_violated_container`), and cell size factors lose digits (`C125_violated_csf`). When it returns:
`C125_returns_partial`. With several load estimators but one of everything else the library is called without a session (`C125_violated_no_session`). From the
second tuning phase on measurements of the phase are not recognised (`C125_violated_phase`).
-/
namespace Verif

variable {S : Type}

theorem harmonyLoop_keeps (p : HarmonyParams) (srv : HarmonyServer S) (phase : Nat) (ev : Configuration Rat → List Evidence) (q : List (Configuration Rat)) :
    ∀ (fuel : Nat) (s : S) (r : (List (Configuration Rat) × Bool) × S), harmonyLoop p srv phase ev q fuel s = .ok r → r.1 = (q, false) := by
  intro fuel
  induction fuel with
  | zero => intro s r h; simp [harmonyLoop] at h
  | succ n ih =>
    intro s r h
    unfold harmonyLoop at h
    simp only at h
    split at h
    · cases h
    · obtain ⟨o, -, h⟩ := Outcome.bind_ok.1 h
      obtain ⟨s2, -, h⟩ := Outcome.bind_ok.1 h
      split at h
      · split at h
        · cases h
        · split at h
          · cases h; rfl
          · split at h
            · cases h; rfl
            · exact ih _ _ h
      · split at h
        · cases h; rfl
        · split at h
          · exact ih _ _ h
          · cases h; rfl

/-- Whatever the server does: a call that returns leaves the queue as it was, and does not claim to have emptied it on purpose. -/
theorem C125_keeps_queue (p : HarmonyParams) (srv : HarmonyServer S) (fuel : Nat) (s : S) (q : List (Configuration Rat)) (ev : Configuration Rat → List Evidence)
    {r : (List (Configuration Rat) × Bool) × S} (h : harmonyOptimize p srv fuel s q ev = .ok r) : r.1 = (q, false) := by
  unfold harmonyOptimize at h
  split at h
  · cases h
  · exact harmonyLoop_keeps p srv 0 ev q fuel s r h

/-! ### The tuner -/

section Tuner
variable {σ C : Type} [DecidableEq C]

/-- A strategy that leaves the queue alone. -/
def KeepsQueue (st : Strategy σ C) : Prop :=
  (∀ s i ph q ev, (st.reset s i ph q ev).1 = (q, false)) ∧ ∀ s q ev, (st.optimize s q ev).1 = (q, false)

/-- The tuner without the state of its strategies. -/
def Tuner.forget (t : Tuner σ C) : Tuner Unit C := { t with strat := () }

/-- The tuner with the same parameters, and no strategy. -/
def TunerCfg.withoutStrategies (cfg : TunerCfg σ C) : TunerCfg Unit C :=
  { tuningInterval := cfg.tuningInterval, maxSamples := cfg.maxSamples, rebuildFrequency := cfg.rebuildFrequency, selector := cfg.selector, strategies := [],
    smooth := cfg.smooth }

theorem runReset_keeps (i ph : Nat) (ev : EvidenceMap C) : ∀ (sts : List (Strategy σ C)), (∀ st ∈ sts, KeepsQueue st) → ∀ q s, (runReset i ph ev sts q s).1 = q := by
  intro sts
  induction sts with
  | nil => intro _ q s; rfl
  | cons st sts ih =>
    intro h q s
    unfold runReset
    simp only
    rw [(h st (by simp)).1]
    simp only [Bool.not_false, Bool.true_and, ite_self]
    exact ih (fun x hx => h x (by simp [hx])) _ _

theorem runOptimize_keeps (ev : EvidenceMap C) : ∀ (sts : List (Strategy σ C)), (∀ st ∈ sts, KeepsQueue st) → ∀ q s, (runOptimize ev sts q s).1 = q := by
  intro sts
  induction sts with
  | nil => intro _ q s; rfl
  | cons st sts ih =>
    intro h q s
    unfold runOptimize
    simp only
    rw [(h st (by simp)).2]
    simp only [Bool.not_false, Bool.true_and, ite_self]
    exact ih (fun x hx => h x (by simp [hx])) _ _

theorem runOptimizeRaw_keeps (ev : EvidenceMap C) : ∀ (sts : List (Strategy σ C)), (∀ st ∈ sts, KeepsQueue st) → ∀ q s, (runOptimizeRaw ev sts q s).1 = q := by
  intro sts
  induction sts with
  | nil => intro _ q s; rfl
  | cons st sts ih =>
    intro h q s
    unfold runOptimizeRaw
    simp only
    rw [(h st (by simp)).2]
    exact ih (fun x hx => h x (by simp [hx])) _ _

/-- Outcomes transported along a function. -/
def Outcome.mapTo {α β : Type} (f : α → β) (o : Outcome α) : Outcome β := o.bind fun a => .ok (f a)

theorem tune_forget {cfg : TunerCfg σ C} (h : ∀ st ∈ cfg.strategies, KeepsQueue st) (t : Tuner σ C) :
    t.forget.tuneConfiguration cfg.withoutStrategies = (t.tuneConfiguration cfg).mapTo fun r => (r.1.forget, r.2) := by
  unfold Tuner.tuneConfiguration
  by_cases h0 : t.queue.isEmpty
  · simp [Tuner.forget, h0, Outcome.mapTo, Outcome.bind]
  · by_cases h1 : (t.iteration % cfg.tuningInterval = 0 ∧ !t.isTuning) ∨ t.forceRetune
    · have hq := runReset_keeps t.iteration t.tuningPhase t.evidence cfg.strategies h t.searchSpace.reverse t.strat
      simp only [Tuner.forget, TunerCfg.withoutStrategies, runReset, h0, h1, if_true, hq]
      by_cases h2 : t.searchSpace.reverse.isEmpty
      · simp only [h2, if_true]
        cases getOptimalConfiguration t.evidence t.tuningPhase <;> simp [Outcome.bind, Outcome.mapTo, resizeVec]
      · simp [h2, Outcome.bind, Outcome.mapTo]
    · have hq := runOptimize_keeps t.evidence cfg.strategies h t.queue.dropLast t.strat
      simp only [Tuner.forget, TunerCfg.withoutStrategies, runOptimize, h0, h1, if_false, hq]
      by_cases h2 : t.queue.dropLast.isEmpty
      · simp only [h2, if_true]
        cases getOptimalConfiguration t.evidence t.tuningPhase <;> simp [Outcome.bind, Outcome.mapTo, resizeVec]
      · simp [h2, Outcome.bind, Outcome.mapTo]

theorem next_forget {cfg : TunerCfg σ C} (h : ∀ st ∈ cfg.strategies, KeepsQueue st) (t : Tuner σ C) :
    t.forget.getNextConfig cfg.withoutStrategies = (t.getNextConfig cfg).mapTo fun r => (r.1.forget, r.2) := by
  unfold Tuner.getNextConfig
  have e1 : t.forget.inTuningPhase cfg.withoutStrategies = t.inTuningPhase cfg := rfl
  have e2 : t.forget.numSamples = t.numSamples := rfl
  have e3 : cfg.withoutStrategies.maxSamples = cfg.maxSamples := rfl
  have e4 : ∀ u : Tuner σ C, u.forget.currentConfig = u.currentConfig := fun _ => rfl
  rw [e1, e2, e3, e4, tune_forget h]
  by_cases h1 : (!t.inTuningPhase cfg) = true
  · simp only [h1, if_true]
    cases t.currentConfig <;> rfl
  · by_cases h2 : t.numSamples < cfg.maxSamples
    · simp only [h1, h2, if_true]
      cases t.currentConfig <;> rfl
    · simp only [h1, h2, if_false]
      cases h3 : t.tuneConfiguration cfg with
      | ok r =>
        simp only [Outcome.mapTo, Outcome.bind, e4]
        cases r.1.currentConfig <;> rfl
      | _ => simp [Outcome.mapTo, Outcome.bind]

theorem op_forget {cfg : TunerCfg σ C} (h : ∀ st ∈ cfg.strategies, KeepsQueue st) (t : Tuner σ C) (o : TunerOp C) :
    o.run cfg.withoutStrategies t.forget = (o.run cfg t).mapTo fun r => (r.1.forget, r.2) := by
  cases o with
  | next =>
    unfold TunerOp.run
    simp only
    rw [next_forget h]
    cases t.getNextConfig cfg <;> rfl
  | reject c i =>
    unfold TunerOp.run
    simp only
    unfold Tuner.rejectConfig
    have e1 : t.forget.trivial = t.trivial := rfl
    rw [e1]
    by_cases h1 : t.trivial
    · simp [h1, Outcome.mapTo, Outcome.bind]
    · have hq := runOptimizeRaw_keeps t.evidence cfg.strategies h (t.queue.filter fun x => x ≠ c) (cfg.strategies.foldl (fun s st => st.reject s c i) t.strat)
      simp only [h1, TunerCfg.withoutStrategies, runOptimizeRaw, hq, Tuner.currentConfig, Tuner.forget]
      cases hl : (t.queue.filter fun x => decide (x ≠ c)).getLast? <;> simp [Outcome.mapTo, Outcome.bind, hl]
  | measure x b =>
    unfold TunerOp.run
    simp only
    unfold Tuner.addMeasurement
    have e4 : t.forget.currentConfig = t.currentConfig := rfl
    rw [e4]
    cases t.currentConfig with
    | ok conf =>
      simp only [Outcome.bind]
      by_cases h1 : t.numSamples ≥ cfg.maxSamples
      · simp [Tuner.forget, TunerCfg.withoutStrategies, Tuner.numSamples] at h1 ⊢; simp [h1, Outcome.mapTo, Outcome.bind]
      · have h1' : ¬ t.forget.numSamples ≥ cfg.withoutStrategies.maxSamples := h1
        simp only [h1, h1', if_false]
        cases b
        · by_cases h2 : ({ t with samplesNot := t.samplesNot ++ [x] } : Tuner σ C).numSamples = cfg.maxSamples
          · have h2' : ({ t.forget with samplesNot := t.forget.samplesNot ++ [x] } : Tuner Unit C).numSamples = cfg.withoutStrategies.maxSamples := h2
            simp only [Bool.false_eq_true, if_false, h2, h2', if_true]
            rfl
          · have h2' : ¬ ({ t.forget with samplesNot := t.forget.samplesNot ++ [x] } : Tuner Unit C).numSamples = cfg.withoutStrategies.maxSamples := h2
            simp only [Bool.false_eq_true, if_false, h2, h2']
            rfl
        · by_cases h2 : ({ t with samplesReb := t.samplesReb ++ [x] } : Tuner σ C).numSamples = cfg.maxSamples
          · have h2' : ({ t.forget with samplesReb := t.forget.samplesReb ++ [x] } : Tuner Unit C).numSamples = cfg.withoutStrategies.maxSamples := h2
            simp only [if_true, h2, h2']
            rfl
          · have h2' : ¬ ({ t.forget with samplesReb := t.forget.samplesReb ++ [x] } : Tuner Unit C).numSamples = cfg.withoutStrategies.maxSamples := h2
            simp only [if_true, h2, h2', if_false]
            rfl
    | _ => rfl
  | bump w => rfl
  | forceRetune => rfl

theorem ops_forget {cfg : TunerCfg σ C} (h : ∀ st ∈ cfg.strategies, KeepsQueue st) : ∀ (os : List (TunerOp C)) (t : Tuner σ C),
    runOps cfg.withoutStrategies t.forget os = (runOps cfg t os).mapTo fun r => (r.1.forget, r.2) := by
  intro os
  induction os with
  | nil => intro t; rfl
  | cons o os ih =>
    intro t
    unfold runOps
    rw [op_forget h]
    cases h1 : o.run cfg t with
    | ok r =>
      simp only [Outcome.mapTo, Outcome.bind]
      rw [ih]
      cases runOps cfg r.1 os <;> rfl
    | _ => rfl

end Tuner

theorem harmony_keeps (p : HarmonyParams) (srv : HarmonyServer S) (restart : S → S) (fuel : Nat) : KeepsQueue (harmonyStrategy p srv restart fuel) := by
  refine ⟨fun _ _ _ _ _ => rfl, fun s q ev => ?_⟩
  unfold harmonyStrategy
  simp only
  cases h : harmonyOptimize p srv fuel s q (getEvidence ev) with
  | ok r => exact C125_keeps_queue p srv fuel s q _ h
  | _ => rfl

/-- With Active Harmony as the strategy, every sequence of operations of the tuner proposes the same configurations, and fails at the same places, as without any
strategy, for every server. -/
theorem C125_full_search {cfg : TunerCfg S (Configuration Rat)} {p : HarmonyParams} {srv : HarmonyServer S} {restart : S → S} {fuel : Nat}
    (h : cfg.strategies = [harmonyStrategy p srv restart fuel]) (t : Tuner S (Configuration Rat)) (os : List (TunerOp (Configuration Rat))) :
    runOps cfg.withoutStrategies t.forget os = (runOps cfg t os).mapTo fun r => (r.1.forget, r.2) :=
  ops_forget (by rw [h]; intro st hst; rw [List.mem_singleton] at hst; subst hst; exact harmony_keeps p srv restart fuel) os t

/-- So two servers, however different their suggestions, lead to the same proposals. -/
theorem C125_violated_no_effect {cfg : TunerCfg S (Configuration Rat)} {p : HarmonyParams} (srv srv' : HarmonyServer S) {restart restart' : S → S} {fuel fuel' : Nat}
    (h : cfg.strategies = [harmonyStrategy p srv restart fuel]) (t : Tuner S (Configuration Rat)) (os : List (TunerOp (Configuration Rat))) :
    (runOps cfg t os).mapTo (·.2) = (runOps { cfg with strategies := [harmonyStrategy p srv' restart' fuel'] } t os).mapTo (·.2) := by
  have e1 := C125_full_search h t os
  have e2 := C125_full_search (cfg := { cfg with strategies := [harmonyStrategy p srv' restart' fuel'] }) rfl t os
  have e3 : ({ cfg with strategies := [harmonyStrategy p srv' restart' fuel'] } : TunerCfg S (Configuration Rat)).withoutStrategies = cfg.withoutStrategies := rfl
  rw [e3, e1] at e2
  generalize runOps cfg t os = a at e2 ⊢
  generalize runOps { cfg with strategies := [harmonyStrategy p srv' restart' fuel'] } t os = b at e2 ⊢
  cases a <;> cases b <;> simp [Outcome.mapTo, Outcome.bind] at e2 ⊢
  exact e2.2

/-! ### When calls return -/

/-- There is something to choose: every parameter has an option, and one of those that the strategy looks at (not the load estimator) has two. -/
def HarmonyParams.HasChoice (p : HarmonyParams) : Prop :=
  (p.containers ≠ [] ∧ p.cellSizeFactors ≠ .finite [] ∧ p.traversals ≠ [] ∧ p.dataLayouts ≠ [] ∧ p.newton3s ≠ []) ∧
    (2 ≤ p.containers.length ∨ (∀ x, p.cellSizeFactors ≠ .finite [x] ∧ p.cellSizeFactors ≠ .interval x x) ∨ 2 ≤ p.traversals.length ∨ 2 ≤ p.dataLayouts.length ∨ 2 ≤ p.newton3s.length)

/-- The tests of the code for this. -/
theorem HarmonyParams.hasChoice_iff (p : HarmonyParams) : p.HasChoice ↔ (p.isTrivial || p.isEmpty) = false := by
  obtain ⟨cs, f, ts, _, ds, ns, _, _⟩ := p
  have key : ∀ {α : Type} (l : List α), l = [] ∨ (∃ x, l = [x]) ∨ ∃ x y m, l = x :: y :: m := by
    intro α l
    rcases l with _ | ⟨x, _ | ⟨y, m⟩⟩
    · exact Or.inl rfl
    · exact Or.inr (Or.inl ⟨_, rfl⟩)
    · exact Or.inr (Or.inr ⟨_, _, _, rfl⟩)
  have e : ∀ {α : Type} (l : List α), (l.length + 1 + 1 == 1) = false := fun l => by simp
  unfold HarmonyParams.HasChoice HarmonyParams.isTrivial HarmonyParams.isEmpty
  rcases key cs with rfl | ⟨_, rfl⟩ | ⟨_, _, _, rfl⟩ <;> rcases key ts with rfl | ⟨_, rfl⟩ | ⟨_, _, _, rfl⟩ <;>
    rcases key ds with rfl | ⟨_, rfl⟩ | ⟨_, _, _, rfl⟩ <;> rcases key ns with rfl | ⟨_, rfl⟩ | ⟨_, _, _, rfl⟩ <;> rcases f with l | ⟨_, _⟩ <;>
    try (rcases key l with rfl | ⟨_, rfl⟩ | ⟨_, _, _, rfl⟩) <;> simp [e]
  all_goals first | done | exact not_congr ⟨fun h => h.symm, fun h => h.symm⟩ | simp [e]
  all_goals exact not_congr ⟨fun h => h.symm, fun h => h.symm⟩

/-- A call returns in one round if the library reports no error, the fetched configuration exists, and it is in the queue or the server is shared; otherwise if
it has not been measured and the search has not converged. -/
theorem C125_returns_partial (p : HarmonyParams) (hp : p.HasChoice) (srv : HarmonyServer S) (s : S) (q : List (Configuration Rat))
    (ev : Configuration Rat → List Evidence) (hf : ∀ s, 0 ≤ (srv.fetch s).1) (hb : ∀ s, (srv.best s).1 = 0) (hr : ∀ s v, (srv.report s v).1 = 0) {o : Configuration Rat}
    (ho : fetchHarmonyConfiguration p srv (srv.fetch s).2 = .ok o)
    (h : p.nonLocalServer = true ∨ (evidenceOfPhase 0 (ev o) = none ∧ (srv.converged (srv.fetch s).2 = true → q.any (fun c => c.eq o) = true))) :
    ∃ s', ∀ fuel, harmonyOptimize p srv (fuel + 1) s q ev = .ok ((q, false), s') := by
  unfold harmonyOptimize
  rw [p.hasChoice_iff.1 hp]
  simp only [Bool.false_eq_true, if_false]
  unfold harmonyLoop
  simp only
  simp only [if_neg (not_lt.2 (hf s)), ho, Outcome.bind]
  rcases h with h | ⟨h1, h2⟩
  · cases hk : evidenceOfPhase 0 (ev o) with
    | none =>
      by_cases hc : srv.converged (srv.fetch s).2 = true
      · simp only [h, if_true, hb, ne_eq, not_true_eq_false, if_false, ite_self, hc]; exact ⟨_, fun _ => rfl⟩
      · simp only [h, if_true, hc]; exact ⟨_, fun _ => rfl⟩
    | some e =>
      by_cases hc : srv.converged (srv.report (srv.fetch s).2 e.value).2 = true
      · simp only [h, if_true, hb, hr, ne_eq, not_true_eq_false, if_false, ite_self, hc]; exact ⟨_, fun _ => rfl⟩
      · simp only [h, if_true, hr, ne_eq, not_true_eq_false, if_false, hc]; exact ⟨_, fun _ => rfl⟩
  · by_cases hc : srv.converged (srv.fetch s).2 = true
    · simp only [h1, hb, hc, h2 hc, if_true, ne_eq, not_true_eq_false, if_false]; exact ⟨_, fun _ => rfl⟩
    · simp only [h1, hc, Option.isSome_none, Bool.false_eq_true, if_false, ite_self]; exact ⟨_, fun _ => rfl⟩

/-- A server that has converged, and always answers with the same point. -/
def convergedServer (o : Options) : HarmonyServer Unit :=
  { fetch := fun _ => (1, ()), traversal := fun _ => o.traversal, dataLayout := fun _ => o.dataLayout, newton3 := fun _ => o.newton3,
    loadEstimator := fun _ => o.loadEstimator, cellSizeFactor := fun _ => o.cellSizeFactor, converged := fun _ => true, best := fun _ => (0, ()), report := fun _ _ => (0, ()) }

/-- If a local server has converged, and the configuration it answers with is not in the queue, the call never returns. -/
theorem C125_violated_diverges (p : HarmonyParams) (hp : p.HasChoice) (hloc : p.nonLocalServer = false) (o : Options) (o' : Configuration Rat)
    (ho : fetchHarmonyConfiguration p (convergedServer o) () = .ok o') (q : List (Configuration Rat)) (hq : q.any (fun c => c.eq o') = false)
    (ev : Configuration Rat → List Evidence) (fuel : Nat) : harmonyOptimize p (convergedServer o) fuel () q ev = .diverges := by
  unfold harmonyOptimize
  rw [p.hasChoice_iff.1 hp]
  simp only [Bool.false_eq_true, if_false]
  induction fuel with
  | zero => rfl
  | succ n ih =>
    unfold harmonyLoop
    simp only
    have e1 : (convergedServer o).fetch () = (1, ()) := rfl
    rw [e1]
    simp only [show ¬ ((1 : Int) < 0) by decide, if_false]
    rw [ho]
    simp only [Outcome.bind]
    have e2 : ∀ u, (convergedServer o).best u = (0, ()) := fun _ => rfl
    have e3 : ∀ u, (convergedServer o).converged u = true := fun _ => rfl
    have e4 : ∀ u v, (convergedServer o).report u v = (0, ()) := fun _ _ => rfl
    cases hk : evidenceOfPhase 0 (ev o') with
    | none => simp only [e2, e3, if_true, ne_eq, not_true_eq_false, if_false, hq, Bool.false_eq_true, hloc]; exact ih
    | some e => simp only [e2, e3, e4, if_true, ne_eq, not_true_eq_false, if_false, hq, Bool.false_eq_true, hloc]; exact ih

/-- Search space: `linkedCellsReferences` with two traversals. -/
def harmonyReferences : HarmonyParams :=
  ⟨[.linkedCellsReferences], .finite [1], [.lc_c08, .lc_c18], [.none], [.aos], [true], 1, false⟩

/-- Whatever point of the search space the server chooses, the fetched configuration is of another container and not in the search space; once the
search has converged the call never returns. -/
theorem C125_violated_container (t : Trav) (ht : t ∈ harmonyReferences.traversals) (space : List (Configuration Rat))
    (hs : cartesianProduct [.linkedCellsReferences] [.lc_c08, .lc_c18] [.none] [.aos] [true] (.finite [1]) .pairwise = .ok space)
    (ev : Configuration Rat → List Evidence) (fuel : Nat) :
    harmonyOptimize harmonyReferences (convergedServer ⟨.linkedCellsReferences, 1, t, .none, .aos, true, .pairwise⟩) fuel () space ev = .diverges := by
  have hspace : ∀ c ∈ space, c.container = 2 := by
    have hh : space = [⟨2, Trav.value .lc_c08, 0, 0, 1, 1, 1⟩, ⟨2, Trav.value .lc_c18, 0, 0, 1, 1, 1⟩] ∨
        space = [⟨2, Trav.value .lc_c18, 0, 0, 1, 1, 1⟩, ⟨2, Trav.value .lc_c08, 0, 0, 1, 1, 1⟩] := by
      have h2 : cartesianProduct [.linkedCellsReferences] [.lc_c08, .lc_c18] [.none] [.aos] [true] (.finite [1]) .pairwise =
        .ok [⟨2, Trav.value .lc_c08, 0, 0, 1, 1, 1⟩, ⟨2, Trav.value .lc_c18, 0, 0, 1, 1, 1⟩] := by decide +kernel
      rw [h2] at hs
      left; injection hs with hs; exact hs.symm
    rcases hh with rfl | rfl <;> simp
  have key : ∀ o' : Options, o'.container = Cont.linkedCells → space.any (fun c => c.eq o'.config) = false := by
    intro o' ho'
    rw [List.any_eq_false]
    intro c hc hh
    have := hspace c hc
    unfold Configuration.eq Configuration.equalsDiscreteOptions at hh
    simp only [Bool.and_eq_true, decide_eq_true_eq] at hh
    have h3 : o'.config.container = 1 := by unfold Options.config; rw [ho']; rfl
    omega
  refine C125_violated_diverges harmonyReferences ((HarmonyParams.hasChoice_iff _).2 (by decide)) rfl _ (⟨.linkedCells, 1, t, .none, .aos, true, .pairwise⟩ : Options).config ?_ space (key ⟨.linkedCells, 1, t, .none, .aos, true, .pairwise⟩ rfl) ev fuel
  simp only [harmonyReferences, List.mem_cons, List.not_mem_nil, or_false] at ht
  rcases ht with rfl | rfl <;> decide +kernel

theorem outcome_bind_ok {α β : Type} {x : Outcome α} {f : α → Outcome β} {b : β} (h : x.bind f = .ok b) : ∃ a, x = .ok a ∧ f a = .ok b := by
  cases x <;> simp_all [Outcome.bind]

theorem fetch_csf {p : HarmonyParams} {srv : HarmonyServer S} {s : S} {c : Configuration Rat} (h : fetchHarmonyConfiguration p srv s = .ok c) :
    c.cellSizeFactor = fetchCellSizeFactor p (srv.cellSizeFactor s) := by
  unfold fetchHarmonyConfiguration at h
  obtain ⟨t, -, h⟩ := outcome_bind_ok h
  obtain ⟨d, -, h⟩ := outcome_bind_ok h
  obtain ⟨n, -, h⟩ := outcome_bind_ok h
  split at h
  · exact absurd h (by simp)
  · obtain ⟨e, -, h⟩ := outcome_bind_ok h
    injection h with h
    rw [← h]; rfl

theorem fetch_csf_finite {p : HarmonyParams} {l : List Rat} (hp : p.cellSizeFactors = .finite l) (h2 : 2 ≤ l.length) (x : Rat) :
    fetchCellSizeFactor p x = csfThroughString x := by
  unfold fetchCellSizeFactor; rw [hp]
  match l, h2 with
  | [], h => simp at h
  | [_], h => simp at h
  | _ :: _ :: _, _ => rfl

/-- Cell size factors lose digits on the way through strings: if there are at least two and the server chooses 1/3, the fetched configuration has another one,
further off than equality of configurations allows. -/
theorem C125_violated_csf (p : HarmonyParams) {l : List Rat} (hp : p.cellSizeFactors = .finite l) (h2 : 2 ≤ l.length) (srv : HarmonyServer S) (s : S)
    (hsrv : srv.cellSizeFactor s = 1 / 3) {c : Configuration Rat} (hc : fetchHarmonyConfiguration p srv s = .ok c) (c' : Configuration Rat)
    (hc' : c'.cellSizeFactor = 1 / 3) : c.eq c' = false := by
  have h : csfThroughString (1 / 3) = 333333 / 1000000 := by
    have : ⌊(1 / 3 : Rat) * 1000000 + 1 / 2⌋ = 333333 := by rw [Int.floor_eq_iff]; norm_num
    unfold csfThroughString; rw [this]; norm_num
  have hf := fetch_csf hc
  rw [fetch_csf_finite hp h2, hsrv, h] at hf
  unfold Configuration.eq Configuration.equalsContinuousOptions
  have : ¬ (|(333333 / 1000000 : Rat) - 1 / 3| < 1 / 10 ^ 12) := by
    rw [abs_of_neg (by norm_num)]; norm_num
  simp only [hf, hc', this, decide_false, Bool.false_and]

theorem csf_six (n : Int) : csfThroughString (n / 1000000) = n / 1000000 := by
  have : ⌊((n : Rat) / 1000000) * 1000000 + 1 / 2⌋ = n := by
    rw [div_mul_cancel₀ _ (by norm_num), Int.floor_eq_iff]; constructor <;> linarith
  unfold csfThroughString; rw [this]

/-- Otherwise the cell size factor of the fetched configuration is the only one there is, or what the server chose: if it has at most six digits, or if there is
an interval of them. -/
theorem C125_csf (p : HarmonyParams) (srv : HarmonyServer S) (s : S) {c : Configuration Rat} (hc : fetchHarmonyConfiguration p srv s = .ok c) :
    (∀ x, p.cellSizeFactors = .finite [x] ∨ p.cellSizeFactors = .interval x x → c.cellSizeFactor = x) ∧
    (∀ l, p.cellSizeFactors = .finite l → 2 ≤ l.length → ∀ n : Int, srv.cellSizeFactor s = n / 1000000 → c.cellSizeFactor = n / 1000000) ∧
    (∀ lo hi, p.cellSizeFactors = .interval lo hi → lo ≠ hi → c.cellSizeFactor = srv.cellSizeFactor s) := by
  rw [fetch_csf hc]
  refine ⟨?_, ?_, ?_⟩
  · rintro x (h | h) <;> simp [fetchCellSizeFactor, h]
  · intro l hl h2 n hn; rw [fetch_csf_finite hl h2, hn, csf_six]
  · intro lo hi h hne; simp [fetchCellSizeFactor, h, hne]

/-- One container, traversal, layout, cell size factor and newton 3 setting, and two load estimators: two configurations, so the tuner asks the strategy, which
has no session. -/
theorem C125_violated_no_session :
    (cartesianProduct [.verletListsCells] [.vlc_sliced_balanced] [.none, .squaredParticlesPerCell] [.aos] [true] (.finite [1]) .pairwise).bind (fun l => .ok l.length) = .ok 2 ∧
    ∀ (srv : HarmonyServer S) fuel s q ev,
      harmonyOptimize ⟨[.verletListsCells], .finite [1], [.vlc_sliced_balanced], [.none, .squaredParticlesPerCell], [.aos], [true], 1, false⟩ srv fuel s q ev = .ub := by
  refine ⟨by decide +kernel, fun srv fuel s q ev => ?_⟩
  unfold harmonyOptimize
  rw [if_pos (by decide)]

/-- In later tuning phases the measurements of the phase are not recognised: a measured configuration that is suggested again is treated as new. -/
theorem C125_violated_phase (es : List Evidence) (phase : Nat) (hp : phase ≠ 0) (e : Evidence) (he : e.tuningPhase = phase) :
    evidenceOfPhase 0 (es ++ [e]) = none ∧ evidenceOfPhase phase (es ++ [e]) = some e := by
  unfold evidenceOfPhase
  simp [he, hp]

/-! ### Examples -/

/-- A search space and a server for which calls return. -/
example : ∃ s', ∀ fuel, harmonyOptimize ⟨[.linkedCells], .finite [1], [.lc_c08, .lc_c18], [.none], [.aos], [true], 1, false⟩
    (convergedServer ⟨.linkedCells, 1, .lc_c18, .none, .aos, true, .pairwise⟩) (fuel + 1) () [(⟨.linkedCells, 1, .lc_c18, .none, .aos, true, .pairwise⟩ : Options).config]
      (fun _ => []) = .ok (([(⟨.linkedCells, 1, .lc_c18, .none, .aos, true, .pairwise⟩ : Options).config], false), s') :=
  C125_returns_partial _ ((HarmonyParams.hasChoice_iff _).2 (by decide)) _ _ _ _ (fun _ => Int.one_nonneg) (fun _ => rfl) (fun _ _ => rfl) (o := (⟨.linkedCells, 1, .lc_c18, .none, .aos, true, .pairwise⟩ : Options).config)
    (by decide +kernel) (Or.inr ⟨rfl, fun _ => by decide +kernel⟩)
example : csfThroughString (1 / 2) = 1 / 2 := by have := csf_six 500000; norm_num at this; exact this
/-- Something is fetched with three cell size factors. -/
example : ∃ c, fetchHarmonyConfiguration ⟨[.linkedCells], .finite [1 / 3, 1, 2], [.lc_c08, .lc_c18], [.none], [.aos], [true], 1, false⟩
    (convergedServer ⟨.linkedCells, 1 / 3, .lc_c18, .none, .aos, true, .pairwise⟩) () = .ok c := ⟨_, by rfl⟩
example : allCompatibleContainers .lc_c08 = [.linkedCells, .linkedCellsReferences] := by decide +kernel

end Verif
