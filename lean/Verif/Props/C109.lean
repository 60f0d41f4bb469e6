import Verif.Lemmas.Replay
import Verif.Lemmas.TuningFilter
import Verif.Lemmas.LogicControl
/-!
# C109: logs of tuning can be replayed

Full claim: replaying a log of tuning phases to a strategy that does not change the queue returns the fastest configuration that was measured in the last
logged phase; this also holds if the program was stopped while it was writing a line, for the phases before, and for every strategy that is allowed to
drop configurations.
-/
namespace Verif
open Spec Spec.TuningLog Spec.Checkpoint

variable {σ : Type}

/-- Every line with a measurement is read back as it was written. -/
theorem C109_evidence {t : OptionTables} (ht : GoodTables t) {value : Int} {iteration : Nat} {c : Configuration Rat}
    (h : GoodEntry t (.evidence value iteration c)) :
    lineType ((LogEntry.evidence value iteration c).text t) = "evidence".toList ∧
    readEvidence t (lineRest ((LogEntry.evidence value iteration c).text t)) = .ok (value, iteration, c) := by
  obtain ⟨h1, h2, h3, hc⟩ := h
  obtain ⟨a1, a2⟩ := line_parts (w := "evidence".toList) (by decide) (intText value ++ ' ' :: (natText iteration ++ ' ' :: (configText t c ++ [' '])))
  unfold LogEntry.text
  rw [a1, a2]
  exact ⟨rfl, readEvidence_text ht hc h1 h2 h3 [' ']⟩

/-- The log and the evidence agree. -/
def LogAgrees (t : Tuner (List LogEntry) (Configuration Rat)) : Prop :=
  ∀ c, loggedOf t.strat c = (getEvidence t.evidence c).map fun e => (e.value, e.iteration)

theorem LogAgrees.snoc {t t' : Tuner (List LogEntry) (Configuration Rat)} (h : LogAgrees t) (he : t'.evidence = t.evidence) {x : LogEntry}
    (hx : ∀ v i c, x ≠ .evidence v i c) (hs : t'.strat = t.strat ++ [x]) : LogAgrees t' := by
  intro c
  have h1 : loggedOf [x] c = [] := by
    cases x with
    | evidence v i c' => exact absurd rfl (hx v i c')
    | _ => rfl
  rw [hs, he, ← h c]
  show List.filterMap _ _ = _
  rw [List.filterMap_append]
  show loggedOf t.strat c ++ loggedOf [x] c = _
  rw [h1, List.append_nil]

theorem LogAgrees.run {cfg : TunerCfg (List LogEntry) (Configuration Rat)} (hst : cfg.strategies = [loggerStrategy])
    {t t' : Tuner (List LogEntry) (Configuration Rat)} (h : LogAgrees t) {a : TunerCall (Configuration Rat)} (hr : a.run cfg t = .ok t') : LogAgrees t' := by
  cases a with
  | bump b => cases hr; exact h
  | forceRetune => cases hr; exact h
  | reject c b =>
    simp only [TunerCall.run, Tuner.rejectConfig, hst] at hr
    split at hr
    · cases hr
    · obtain ⟨⟨t1, c1, b1⟩, h1, h2⟩ := Outcome.bind_ok.1 hr
      obtain ⟨c2, h3, h4⟩ := Outcome.bind_ok.1 h1
      cases h4; cases h2
      exact h.snoc rfl (x := .tune) (by intros; simp) rfl
  | nextConfig =>
    simp only [TunerCall.run, Tuner.getNextConfig] at hr
    obtain ⟨⟨t1, c1, b1⟩, h1, h2⟩ := Outcome.bind_ok.1 hr
    cases h2
    split at h1
    · obtain ⟨c2, h3, h4⟩ := Outcome.bind_ok.1 h1
      cases h4; exact h
    split at h1
    · obtain ⟨c2, h3, h4⟩ := Outcome.bind_ok.1 h1
      cases h4; exact h
    obtain ⟨⟨t2, b2⟩, h3, h4⟩ := Outcome.bind_ok.1 h1
    obtain ⟨c2, h5, h6⟩ := Outcome.bind_ok.1 h4
    cases h6
    simp only [Tuner.tuneConfiguration, hst] at h3
    split at h3
    · cases h3
    by_cases hc : (t.iteration % cfg.tuningInterval = 0 ∧ !t.isTuning) ∨ t.forceRetune
    · rw [if_pos hc] at h3
      split at h3
      · obtain ⟨c3, h7, h8⟩ := Outcome.bind_ok.1 h3
        cases h8
        exact h.snoc rfl (x := .reset t.iteration) (by intros; simp) rfl
      · cases h3
        exact h.snoc rfl (x := .reset t.iteration) (by intros; simp) rfl
    · rw [if_neg hc] at h3
      split at h3
      · obtain ⟨c3, h7, h8⟩ := Outcome.bind_ok.1 h3
        cases h8
        exact h.snoc rfl (x := .tune) (by intros; simp) rfl
      · cases h3
        exact h.snoc rfl (x := .tune) (by intros; simp) rfl
  | measure x b =>
    simp only [TunerCall.run, addMeasurement_eq, hst] at hr
    obtain ⟨conf, h1, h2⟩ := Outcome.bind_ok.1 hr
    split at h2
    · cases h2
    have hw : LogAgrees (withSample t x b) := by cases b <;> exact h
    split at h2
    · cases h2
      generalize withSample t x b = u at hw
      intro c
      show loggedOf (u.strat ++ [.evidence (newEvidence cfg u conf).2 u.iteration conf]) c =
        (getEvidence (newEvidence cfg u conf).1 c).map fun e => (e.value, e.iteration)
      have hl : loggedOf (u.strat ++ [.evidence (newEvidence cfg u conf).2 u.iteration conf]) c =
          loggedOf u.strat c ++ (if conf = c then [((newEvidence cfg u conf).2, u.iteration)] else []) := by
        show List.filterMap _ _ = _
        rw [List.filterMap_append]
        congr 1
        show loggedOf [_] c = _
        unfold loggedOf
        split_ifs with hc
        · simp [hc]
        · simp [hc]
      have hadd := getEvidence_add u.evidence conf conf ⟨u.iteration, u.tuningPhase,
        estimateRuntime cfg.rebuildFrequency cfg.selector u.samplesReb u.samplesNot⟩
      rw [if_pos rfl] at hadd
      have hset := getEvidence_setLast _ conf c (newEvidence cfg u conf).2 _ _ hadd
      rw [getEvidence_add] at hset
      have he : getEvidence (newEvidence cfg u conf).1 c = _ := hset
      rw [hl, he, hw c]
      split_ifs with hc
      · subst hc; simp
      · simp
    · cases h2; exact hw

/-- Whatever is called in whatever order: for every configuration the log contains the values and iterations of its measurements, in order. -/
theorem C109_logged {cfg : TunerCfg (List LogEntry) (Configuration Rat)} (hst : cfg.strategies = [loggerStrategy])
    {S : List (Configuration Rat)} {t t' : Tuner (List LogEntry) (Configuration Rat)} (hinit : Tuner.init cfg S [] = .ok t)
    {cs : List (TunerCall (Configuration Rat))} (hr : runCalls cfg t cs = .ok t') (c : Configuration Rat) :
    loggedOf t'.strat c = (getEvidence t'.evidence c).map fun e => (e.value, e.iteration) := by
  have h0 : LogAgrees t := by
    unfold Tuner.init at hinit
    split at hinit
    · cases hinit
    · cases hinit; intro c; rfl
  suffices h : ∀ (cs : List (TunerCall (Configuration Rat))) {t : Tuner (List LogEntry) (Configuration Rat)}, LogAgrees t → runCalls cfg t cs = .ok t' →
      LogAgrees t' from h cs h0 hr c
  clear h0 hr hinit t
  intro cs
  induction cs with
  | nil => intro t h hr; cases hr; exact h
  | cons a cs ih =>
    intro t h hr
    obtain ⟨t1, h1, h2⟩ := Outcome.bind_ok.1 hr
    exact ih (h.run hst h1) h2

/-- Every line with live info is read back with the same names in the same order; numbers are rounded to six digits. -/
theorem C109_live_info {t : OptionTables} (ht : GoodTables t) {infos : List (List Char × InfoValue)} (h : GoodEntry t (.liveInfo infos)) :
    lineType ((LogEntry.liveInfo infos).text t) = "liveInfo".toList ∧
    ∃ infos', readLiveInfo t (lineRest ((LogEntry.liveInfo infos).text t)) = .ok infos' ∧
      List.Forall₂ (fun x y => x.1 = y.1 ∧ SameValue x.2 y.2) infos infos' := by
  obtain ⟨a1, a2⟩ := line_parts (w := "liveInfo".toList) (by decide) (liveInfoText t infos ++ [' '])
  unfold LogEntry.text
  rw [a1, a2]
  refine ⟨rfl, _, readLiveInfo_text ht h [' '], ?_⟩
  rw [List.forall₂_map_right_iff]
  exact List.forall₂_same.2 fun x _ => ⟨rfl, storedInfo_same x.2⟩

theorem history_good {t : OptionTables} {ps : List Phase} (h : ∀ p ∈ ps, p.Good t) : ∀ e ∈ history ps, GoodEntry t e := by
  intro e he
  obtain ⟨p, hp, he⟩ := List.mem_flatMap.1 he
  rcases List.mem_cons.1 he with rfl | he
  · trivial
  · exact (h p hp e he).1

/-- The state behind the first phase. -/
theorem replay_first {st : Strategy σ (Configuration Rat)} (receive : σ → List (List Char × InfoValue) → σ) (fuel : Nat) (p : Phase)
    (hp : ∀ e ∈ p.entries, ∀ i, e ≠ .reset i) (x : Replay σ) (h1 : x.added = false) : ∃ s,
    replayEntries st receive fuel (.reset p.start :: p.entries) x =
      .ok ⟨(st.reset x.strat 0 (x.phase + 1) x.queue x.evidence).1.1, x.evidence, x.phase + 1, x.best, !(newTimes p.entries).isEmpty, newTimes p.entries, s⟩ := by
  simp only [replayEntries, replayEntry, replay_first_reset h1, Outcome.bind]
  obtain ⟨s, hs⟩ := replayEntries_phase (st := st) (receive := receive) (fuel := fuel) hp
    ⟨(st.reset x.strat 0 (x.phase + 1) x.queue x.evidence).1.1, x.evidence, x.phase + 1, x.best, x.added, [],
      (st.reset x.strat 0 (x.phase + 1) x.queue x.evidence).2⟩
  refine ⟨s, ?_⟩
  rw [hs]
  simp [h1]

theorem newTimes_ne {p : Phase} {c : Configuration Rat} (h : measured p c ≠ none) : (newTimes p.entries).isEmpty = false := by
  cases hn : newTimes p.entries with
  | nil => exact absurd (by rw [← newTimes_find, hn]; rfl) h
  | cons a l => rfl

/-- Replaying returns the fastest configuration of the *first* logged phase. -/
theorem C109_first_phase_partial {t : OptionTables} (ht : GoodTables t) {st : Strategy σ (Configuration Rat)} (hst : Passive st)
    (receive : σ → List (List Char × InfoValue) → σ) {S : List (Configuration Rat)} (hS : S.Nodup) {fuel : Nat} (hf : S.length ≤ fuel) (s : σ)
    {p : Phase} {ps : List Phase} (hgood : ∀ q ∈ p :: ps, q.Good t) (hv : ∀ c ∈ S, ∀ v, measured p c = some v → v < longMax)
    (hsome : ∃ c ∈ S, measured p c ≠ none) :
    ∃ best, replayLog t st receive fuel S s (logFile t (history (p :: ps))) = .ok (some best) ∧ FastestOf S p best := by
  obtain ⟨c0, hc0, hm0⟩ := hsome
  have hlines := splitLines_log ht (history_good hgood) (p := []) (by simp)
  rw [List.append_nil] at hlines
  unfold replayLog
  rw [hlines, replayLines_log ht [] (history_good hgood)]
  set x0 : Replay σ := { queue := S.reverse, evidence := [], phase := 0, best := none, added := false, times := [], strat := s } with hx0
  obtain ⟨s1, h1⟩ := replay_first (st := st) receive fuel p (fun e he => (hgood p (by simp) e he).2) x0 rfl
  have hhist : history (p :: ps) = (.reset p.start :: p.entries) ++ history ps := by simp [history]
  rw [hhist, replayEntries_append, h1]
  simp only [Outcome.bind, replayLine_end]
  obtain ⟨x', best, e1, e2, e3, e4, e5, e6⟩ := evaluate_first hst (fuel := fuel) hS hf hv ⟨c0, hc0, hm0⟩
    (x := ⟨(st.reset x0.strat 0 (x0.phase + 1) x0.queue x0.evidence).1.1, x0.evidence, x0.phase + 1, x0.best, !(newTimes p.entries).isEmpty, newTimes p.entries, s1⟩)
    (hst.reset _ _ _ _ _) rfl (by simp [newTimes_ne hm0]) rfl
  refine ⟨best, ?_, e6⟩
  have hdone : x'.Done best := ⟨e2, e3, e5⟩
  cases ps with
  | nil =>
    simp only [history, List.flatMap_nil, replayEntries, e1, Outcome.bind, e3]
  | cons q ps =>
    have hh : history (q :: ps) = .reset q.start :: (q.entries ++ history ps) := by simp [history]
    rw [hh]
    simp only [replayEntries, replayEntry, e1, Outcome.bind]
    obtain ⟨y, hy, hyd⟩ := hdone.entries (receive := receive) (fuel := fuel) hst (q.entries ++ history ps)
    rw [hy]
    simp only
    obtain ⟨z, hz, hzd⟩ := hyd.reset (fuel := fuel) hst
    rw [hz]
    simp only [hzd.best]

/-- With one logged phase this is the claim. -/
theorem C109_single_phase {t : OptionTables} (ht : GoodTables t) {st : Strategy σ (Configuration Rat)} (hst : Passive st)
    (receive : σ → List (List Char × InfoValue) → σ) {S : List (Configuration Rat)} (hS : S.Nodup) {fuel : Nat} (hf : S.length ≤ fuel) (s : σ)
    {p : Phase} (hgood : p.Good t) (hv : ∀ c ∈ S, ∀ v, measured p c = some v → v < longMax) (hsome : ∃ c ∈ S, measured p c ≠ none) :
    ∃ best, replayLog t st receive fuel S s (logFile t (history [p])) = .ok (some best) ∧ FastestOf S p best :=
  C109_first_phase_partial ht hst receive hS hf s (by simpa using hgood) hv hsome

/-- Violated: what was measured in later phases is ignored. Whenever another configuration is strictly faster in the last phase than all fastest ones of
the first phase, the answer is wrong. -/
theorem C109_violated_later_phases {t : OptionTables} (ht : GoodTables t) {st : Strategy σ (Configuration Rat)} (hst : Passive st)
    (receive : σ → List (List Char × InfoValue) → σ) {S : List (Configuration Rat)} (hS : S.Nodup) {fuel : Nat} (hf : S.length ≤ fuel) (s : σ)
    {p q : Phase} (hp : p.Good t) (hq : q.Good t) (hv : ∀ c ∈ S, ∀ v, measured p c = some v → v < longMax) (hsome : ∃ c ∈ S, measured p c ≠ none)
    (hdiff : ∀ c, FastestOf S p c → ¬ FastestOf S q c) :
    ∃ best, replayLog t st receive fuel S s (logFile t (history [p, q])) = .ok (some best) ∧ ¬ FastestOf S q best := by
  obtain ⟨best, h1, h2⟩ := C109_first_phase_partial ht hst receive hS hf s (p := p) (ps := [q])
    (by intro x hx; rcases List.mem_cons.1 hx with rfl | hx; exacts [hp, by rw [List.mem_singleton] at hx; exact hx ▸ hq]) hv hsome
  exact ⟨best, h1, hdiff best h2⟩

/-- Violated: a strategy that ends the phase by emptying the queue on purpose, like random search with fewer evidence than the log has measurements,
makes the replayer access the last element of an empty vector. -/
theorem C109_violated_wipe {t : OptionTables} (ht : GoodTables t) {m : Nat} {draw : Nat → Nat → Nat} (hdraw : ∀ k n, 0 < n → draw k n < n)
    (receive : RandomState → List (List Char × InfoValue) → RandomState) {S : List (Configuration Rat)} {fuel : Nat} (hf : m < fuel)
    (s : RandomState) {p : Phase} (hgood : p.Good t) (hall : ∀ c ∈ S, measured p c ≠ none) (hm : m < S.length) :
    replayLog t (randomStrategy m draw) receive fuel S s (logFile t (history [p])) = .ub := by
  have hg : ∀ q ∈ [p], q.Good t := by simpa using hgood
  have hlines := splitLines_log ht (history_good hg) (p := []) (by simp)
  rw [List.append_nil] at hlines
  unfold replayLog
  rw [hlines, replayLines_log ht [] (history_good hg)]
  obtain ⟨s1, h1⟩ := replay_first (st := randomStrategy m draw) receive fuel p (fun e he => (hgood e he).2)
    { queue := S.reverse, evidence := [], phase := 0, best := none, added := false, times := [], strat := s } rfl
  have hhist : history [p] = .reset p.start :: p.entries := by simp [history]
  rw [hhist, h1]
  simp only [Outcome.bind, replayLine_end]
  obtain ⟨c0, hc0⟩ := List.exists_mem_of_length_pos (by omega : 0 < S.length)
  have hub : ∀ (ev : EvidenceMap (Configuration Rat)) (s' : RandomState), replayQueue (randomStrategy m draw) (newTimes p.entries) 1 fuel S.reverse ev { s' with numEvidence := 0 } = .ub := by
    intro ev s'
    refine replayQueue_random hdraw (j := m) (by simp) (by simpa using hm) hf ?_
    intro c hc
    have := hall c (by simpa using hc)
    rw [← newTimes_find] at this
    cases hfind : (newTimes p.entries).find? (fun y => y.1 = c) with
    | none => rw [hfind] at this; exact absurd rfl this
    | some x => exact ⟨x, rfl⟩
  unfold replayReset
  rw [if_pos (by simp [newTimes_ne (hall c0 hc0)])]
  have := hub [] s1
  simp only [randomStrategy] at this ⊢
  simp only [Nat.zero_add]
  rw [this]
  rfl

/-- Violated: if the program is stopped while it writes a measurement, behind the word `evidence` and before the closing brace, replaying does not end,
however many complete phases the log has. -/
theorem C109_violated_truncated {t : OptionTables} (ht : GoodTables t) {st : Strategy σ (Configuration Rat)} (hst : Passive st)
    (receive : σ → List (List Char × InfoValue) → σ) {S : List (Configuration Rat)} (hS : S.Nodup) {fuel : Nat} (hf : S.length ≤ fuel) (s : σ)
    {p : Phase} {ps : List Phase} (hgood : ∀ q ∈ p :: ps, q.Good t) (hv : ∀ c ∈ S, ∀ v, measured p c = some v → v < longMax)
    (hsome : ∃ c ∈ S, measured p c ≠ none) {value : Int} {iteration : Nat} {c : Configuration Rat} (he : GoodEntry t (.evidence value iteration c))
    {cut : List Char} (hcut : cut <+: (LogEntry.evidence value iteration c).text t) (hlong : "evidence ".toList <+: cut) (hbrace : '}' ∉ cut) :
    replayLog t st receive fuel S s (logFile t (history (p :: ps)) ++ cut) = .diverges := by
  obtain ⟨c0, hc0, hm0⟩ := hsome
  have hclean : '\n' ∉ cut := fun hm => entry_clean ht he (hcut.subset hm)
  obtain ⟨r, rfl⟩ := hlong
  have hr : r <+: intText value ++ ' ' :: (natText iteration ++ ' ' :: (configText t c ++ [' '])) := by
    have e : (LogEntry.evidence value iteration c).text t = "evidence ".toList ++ (intText value ++ ' ' :: (natText iteration ++ ' ' :: (configText t c ++ [' ']))) := rfl
    rw [e] at hcut
    exact (List.prefix_append_right_inj _).1 hcut
  obtain ⟨h1, h2, h3, hc⟩ := he
  have hdiv := readEvidence_cut ht hc h1 h2 h3 hr (fun hm => hbrace (by simp [hm]))
  have hline : ∀ x : Replay σ, replayLine t st receive fuel true ("evidence ".toList ++ r) x = .diverges := by
    intro x
    obtain ⟨a1, a2⟩ := line_parts (w := "evidence".toList) (by decide) r
    have e : "evidence ".toList ++ r = "evidence".toList ++ ' ' :: r := rfl
    unfold replayLine
    rw [e, a1, a2, if_pos rfl, hdiv]
    rfl
  unfold replayLog
  rw [splitLines_log ht (history_good hgood) hclean, replayLines_log ht _ (history_good hgood)]
  simp only [hline]
  set x0 : Replay σ := { queue := S.reverse, evidence := [], phase := 0, best := none, added := false, times := [], strat := s } with hx0
  obtain ⟨s1, e0⟩ := replay_first (st := st) receive fuel p (fun e he => (hgood p (by simp) e he).2) x0 rfl
  have hhist : history (p :: ps) = (.reset p.start :: p.entries) ++ history ps := by simp [history]
  rw [hhist, replayEntries_append, e0]
  simp only [Outcome.bind]
  obtain ⟨x', best, e1, e2, e3, e4, e5, e6⟩ := evaluate_first hst (fuel := fuel) hS hf hv ⟨c0, hc0, hm0⟩
    (x := ⟨(st.reset x0.strat 0 (x0.phase + 1) x0.queue x0.evidence).1.1, x0.evidence, x0.phase + 1, x0.best, !(newTimes p.entries).isEmpty, newTimes p.entries, s1⟩)
    (hst.reset _ _ _ _ _) rfl (by simp [newTimes_ne hm0]) rfl
  have hdone : x'.Done best := ⟨e2, e3, e5⟩
  cases ps with
  | nil => simp only [history, List.flatMap_nil, replayEntries]
  | cons q ps =>
    have hh : history (q :: ps) = .reset q.start :: (q.entries ++ history ps) := by simp [history]
    rw [hh]
    simp only [replayEntries, replayEntry, e1, Outcome.bind]
    obtain ⟨y, hy, -⟩ := hdone.entries (receive := receive) (fuel := fuel) hst (q.entries ++ history ps)
    rw [hy]

theorem fixedText_round6 {q : Rat} (h : 0 ≤ q) : fixedText (round6 q) = fixedText q := by
  have hn : 0 ≤ round6 q := by
    unfold round6
    rw [if_neg (not_lt.2 h)]
    positivity
  have hr : roundHalfEven (|round6 q| * 10 ^ 6) = ((roundHalfEven (|q| * 10 ^ 6)).toNat : Int) := by
    rw [abs_of_nonneg hn]
    unfold round6
    rw [if_neg (not_lt.2 h), one_mul, div_mul_cancel₀ _ (by norm_num)]
    exact le_antisymm (roundHalfEven_le (by norm_cast)) (roundHalfEven_mono_le (by norm_cast))
  unfold fixedText
  rw [hr, Int.toNat_natCast, if_neg (not_lt.2 h), if_neg (not_lt.2 hn)]

/-- Violated: a cell size factor with more digits is written with six digits after the decimal point. Its measurement is then not found, and if there is
no other one replaying ends with an exception. -/
theorem C109_violated_decimals {t : OptionTables} (ht : GoodTables t) {st : Strategy σ (Configuration Rat)} (hst : Passive st)
    (receive : σ → List (List Char × InfoValue) → σ) {fuel : Nat} (hf : 0 < fuel) (s : σ) {c : Configuration Rat} {x : Rat} (hc : Writable t c)
    (hx : 0 ≤ x) (hmore : ∀ n : Int, x * 10 ^ 6 ≠ n) {value : Int} {iteration : Nat} (he : GoodEntry t (.evidence value iteration c)) (start : Nat) :
    replayLog t st receive fuel [{ c with cellSizeFactor := x }] s
      (logFile t (history [⟨start, [.evidence value iteration { c with cellSizeFactor := x }]⟩])) = .throws := by
  obtain ⟨h1, h2, h3, -⟩ := he
  set d : Configuration Rat := { c with cellSizeFactor := round6 x } with hd
  have hr6 : ∃ n : Int, round6 x * 10 ^ 6 = n := by
    refine ⟨(roundHalfEven (|x| * 10 ^ 6)).toNat, ?_⟩
    unfold round6
    rw [if_neg (not_lt.2 hx), one_mul, div_mul_cancel₀ _ (by norm_num)]
    norm_cast
  have hdw : Writable t d := ⟨hc.container, hc.traversal, hc.loadEstimator, hc.dataLayout, hc.newton3, hc.interactionType, hr6⟩
  have hne : d ≠ { c with cellSizeFactor := x } := by
    intro e
    have : round6 x = x := congrArg Configuration.cellSizeFactor e
    rw [this] at hr6
    obtain ⟨n, hn⟩ := hr6
    exact hmore n hn
  have htext : logFile t (history [⟨start, [.evidence value iteration { c with cellSizeFactor := x }]⟩]) =
      logFile t (history [⟨start, [.evidence value iteration d]⟩]) := by
    have : configText t { c with cellSizeFactor := x } = configText t d := by
      unfold configText
      rw [hd]
      simp only [fixedText_round6 hx]
    have hlog : ∀ c' : Configuration Rat, logFile t (history [⟨start, [.evidence value iteration c']⟩]) =
        ((LogEntry.reset start).text t ++ ['\n']) ++ (("evidence".toList ++ ' ' :: (intText value ++ ' ' :: (natText iteration ++ ' ' :: (configText t c' ++ [' '])))) ++ ['\n']) := by
      intro c'
      simp only [logFile, history, List.flatMap_cons, List.flatMap_nil, List.append_nil]
      rfl
    rw [hlog, hlog, this]
  rw [htext]
  have hgood : ∀ q ∈ [(⟨start, [.evidence value iteration d]⟩ : Phase)], q.Good t := by
    intro q hq e he'
    rw [List.mem_singleton] at hq
    subst hq
    rw [List.mem_singleton] at he'
    subst he'
    exact ⟨⟨h1, h2, h3, hdw⟩, by simp⟩
  have hlines := splitLines_log ht (history_good hgood) (p := []) (by simp)
  rw [List.append_nil] at hlines
  unfold replayLog
  rw [hlines, replayLines_log ht [] (history_good hgood)]
  set x0 : Replay σ := { queue := [{ c with cellSizeFactor := x }].reverse, evidence := [], phase := 0, best := none, added := false, times := [], strat := s } with hx0
  obtain ⟨s1, h0⟩ := replay_first (st := st) receive fuel ⟨start, [.evidence value iteration d]⟩ (by simp) x0 rfl
  have hhist : history [(⟨start, [.evidence value iteration d]⟩ : Phase)] = .reset start :: [.evidence value iteration d] := by simp [history]
  rw [hhist, h0]
  simp only [Outcome.bind, replayLine_end]
  have hq : ∀ s0 : σ, ∃ s', replayQueue st [(d, value, iteration)] 1 fuel [{ c with cellSizeFactor := x }] [] s0 = .ok ([], s') := by
    intro s0
    obtain ⟨s', hs'⟩ := replayQueue_passive hst (times := [(d, value, iteration)]) (phase := 1) (S := [{ c with cellSizeFactor := x }]) (fuel := fuel)
      (ev := []) (s := s0) (by simp only [List.length_singleton]; exact hf) (by simp) (by simp)
    refine ⟨s', ?_⟩
    simpa [foundEvidence, hne] using hs'
  unfold replayReset
  rw [if_pos (by simp [newTimes])]
  simp only [hst.reset, hx0, newTimes, List.filterMap_cons, List.filterMap_nil, List.reverse_cons, List.reverse_nil, List.nil_append, Nat.zero_add]
  obtain ⟨s', hs'⟩ := hq (st.reset s1 0 0 [{ c with cellSizeFactor := x }] []).2
  rw [hs']
  rfl

/-! ### Non-vacuity -/

/-- The names of some options of AutoPas (ContainerOption.h:104-112, TraversalOption.h:287-329, LoadEstimatorOption.h:67-69, DataLayoutOption.h:63-64,
Newton3Option.h:63-64, InteractionTypeOption.h:85-87). -/
def someNames : OptionTables where
  container := [(0, "DirectSum".toList), (1, "LinkedCells".toList), (3, "VerletLists".toList), (8, "Octree".toList)]
  traversal := [(0, "ds_sequential".toList), (1, "lc_sliced".toList), (9, "lc_c08".toList), (10, "lc_c18".toList)]
  loadEstimator := [(0, "none".toList), (1, "squared-particles-per-cell".toList), (2, "neighbor-list-length".toList)]
  dataLayout := [(0, "AoS".toList), (1, "SoA".toList)]
  newton3 := [(0, "disabled".toList), (1, "enabled".toList)]
  interactionType := [(0, "pairwise".toList), (1, "triwise".toList), (2, "all".toList)]

theorem someNames_good : GoodTables someNames :=
  ⟨⟨by decide, by decide, by decide⟩, ⟨by decide, by decide, by decide⟩, ⟨by decide, by decide, by decide⟩, ⟨by decide, by decide, by decide⟩,
    ⟨by decide, by decide, by decide⟩, ⟨by decide, by decide, by decide⟩⟩

def lcCfg (tr : Nat) (csf : Rat) : Configuration Rat := ⟨1, tr, 0, 1, 1, csf, 0⟩

theorem lcCfg_writable (tr : Nat) (h : tr = 9 ∨ tr = 10) (csf : Rat) (hc : ∃ n : Int, csf * 10 ^ 6 = n) : Writable someNames (lcCfg tr csf) :=
  ⟨⟨(1, "LinkedCells".toList), by decide, rfl⟩, by rcases h with rfl | rfl; exacts [⟨(9, "lc_c08".toList), by decide, rfl⟩, ⟨(10, "lc_c18".toList), by decide, rfl⟩],
    ⟨(0, "none".toList), by decide, rfl⟩, ⟨(1, "SoA".toList), by decide, rfl⟩, ⟨(1, "enabled".toList), by decide, rfl⟩,
    ⟨(0, "pairwise".toList), by decide, rfl⟩, hc⟩

/-- Full search does not change the queue. -/
def fullSearch : Strategy Unit (Configuration Rat) where
  reset s _ _ q _ := ((q, false), s)
  optimize s q _ := ((q, false), s)
  addEvidence s _ _ := s
  reject s _ _ := s

theorem fullSearch_passive : Passive fullSearch := ⟨fun _ _ _ _ _ => rfl, fun _ _ _ => rfl⟩

/-- Two phases in which the order of two configurations changes. -/
def phaseA (a b : Int) (i : Nat) : Phase := ⟨i, [.tune, .evidence a (i + 1) (lcCfg 9 2), .tune, .evidence b (i + 2) (lcCfg 10 1)]⟩

theorem phaseA_good (a b : Int) (i : Nat) (ha : 0 ≤ a ∧ a < 1000) (hb : 0 ≤ b ∧ b < 1000) (hi : i < 1000) : (phaseA a b i).Good someNames := by
  intro e he
  simp only [phaseA, List.mem_cons, List.not_mem_nil, or_false] at he
  have w1 := lcCfg_writable 9 (Or.inl rfl) 2 ⟨2000000, by norm_num⟩
  have w2 := lcCfg_writable 10 (Or.inr rfl) 1 ⟨1000000, by norm_num⟩
  rcases he with rfl | rfl | rfl | rfl
  · exact ⟨trivial, by simp⟩
  · exact ⟨⟨by omega, by omega, by omega, w1⟩, by simp⟩
  · exact ⟨trivial, by simp⟩
  · exact ⟨⟨by omega, by omega, by omega, w2⟩, by simp⟩

theorem phaseA_measured (a b : Int) (i : Nat) : measured (phaseA a b i) (lcCfg 9 2) = some a ∧ measured (phaseA a b i) (lcCfg 10 1) = some b := by
  have h1 : lcCfg 10 1 ≠ lcCfg 9 2 := fun h => absurd (congrArg Configuration.traversal h) (by decide)
  constructor
  · simp [measured, phaseA, h1]
  · simp [measured, phaseA, h1.symm]

/-- Full search: the answer for a log of two phases is the fastest configuration of the first, and wrong for the second. -/
example : ∃ best, replayLog someNames fullSearch (fun s _ => s) 2 [lcCfg 9 2, lcCfg 10 1] () (logFile someNames (history [phaseA 5 7 0, phaseA 8 6 100])) =
    .ok (some best) ∧ ¬ FastestOf [lcCfg 9 2, lcCfg 10 1] (phaseA 8 6 100) best := by
  have h1 : lcCfg 9 2 ≠ lcCfg 10 1 := fun h => absurd (congrArg Configuration.traversal h) (by decide)
  obtain ⟨m1, m2⟩ := phaseA_measured 5 7 0
  obtain ⟨n1, n2⟩ := phaseA_measured 8 6 100
  refine C109_violated_later_phases someNames_good fullSearch_passive _ (by simp [h1]) (by simp) () (phaseA_good 5 7 0 (by norm_num) (by norm_num) (by norm_num))
    (phaseA_good 8 6 100 (by norm_num) (by norm_num) (by norm_num)) ?_ ⟨lcCfg 9 2, by simp, by rw [m1]; simp⟩ ?_
  · intro c hc v hv
    simp only [List.mem_cons, List.not_mem_nil, or_false] at hc
    rcases hc with rfl | rfl
    · rw [m1] at hv; cases hv; decide
    · rw [m2] at hv; cases hv; decide
  · rintro c ⟨hc, v, hv, hmin⟩ ⟨-, w, hw, hmin'⟩
    simp only [List.mem_cons, List.not_mem_nil, or_false] at hc
    rcases hc with rfl | rfl
    · rw [n1] at hw; cases hw
      have := hmin' (lcCfg 10 1) (by simp) 6 n2
      omega
    · rw [m2] at hv; cases hv
      have := hmin (lcCfg 9 2) (by simp) 5 m1
      omega

/-- A random search with one measurement per phase. -/
example : replayLog someNames (randomStrategy 1 fun _ _ => 0) (fun s _ => s) 5 [lcCfg 9 2, lcCfg 10 1] RandomState.init
    (logFile someNames (history [phaseA 5 7 0])) = .ub := by
  obtain ⟨m1, m2⟩ := phaseA_measured 5 7 0
  refine C109_violated_wipe someNames_good (fun _ n h => h) _ (by norm_num) _ (phaseA_good 5 7 0 (by norm_num) (by norm_num) (by norm_num)) ?_ (by simp)
  intro c hc
  simp only [List.mem_cons, List.not_mem_nil, or_false] at hc
  rcases hc with rfl | rfl
  · rw [m1]; simp
  · rw [m2]; simp

/-- A cut line. -/
example : "evidence ".toList <+: "evidence 12".toList ∧ "evidence 12".toList <+: (LogEntry.evidence 123 4 (lcCfg 9 2)).text someNames ∧
    '}' ∉ "evidence 12".toList := by
  refine ⟨⟨"12".toList, by decide⟩, ?_, by decide⟩
  have : intText 123 = "123".toList := by decide
  show "evidence 12".toList <+: "evidence".toList ++ ' ' :: (intText 123 ++ ' ' :: (natText 4 ++ ' ' :: (configText someNames (lcCfg 9 2) ++ [' '])))
  rw [this]
  exact ⟨"3".toList ++ ' ' :: (natText 4 ++ ' ' :: (configText someNames (lcCfg 9 2) ++ [' '])), rfl⟩

/-- A cell size factor of a third. -/
example : replayLog someNames fullSearch (fun s _ => s) 1 [lcCfg 9 (1/3)] () (logFile someNames (history [⟨0, [.evidence 5 1 (lcCfg 9 (1/3))]⟩])) = .throws := by
  have hw := lcCfg_writable 9 (Or.inl rfl) 2 ⟨2000000, by norm_num⟩
  exact C109_violated_decimals someNames_good fullSearch_passive _ (by norm_num) () (c := lcCfg 9 2) (x := 1/3) hw (by norm_num)
    (by
      intro n h
      have h2 : (1000000 : Rat) = ((n * 3 : Int) : Rat) := by push_cast; linarith
      have h3 : (1000000 : Int) = n * 3 := by exact_mod_cast h2
      omega)
    ⟨by norm_num, by norm_num, by norm_num, hw⟩ 0

/-- Live info of a simulation. -/
example : GoodEntry someNames (.liveInfo [("cutoff".toList, .double (1/3)), ("numParticles".toList, .size 1000), ("particleDependentBins".toList, .bool true),
    ("newton3".toList, .option 4 1)]) :=
  ⟨by decide, by decide, by decide, by
    intro x hx
    simp only [List.mem_cons, List.not_mem_nil, or_false] at hx
    rcases hx with rfl | rfl | rfl | rfl
    · trivial
    · exact (by decide : 1000 < 2 ^ 64)
    · trivial
    · exact ⟨(1, "enabled".toList), by decide, rfl⟩⟩

/-- A logged history of calls: the first configuration is rejected, the second one measured twice. -/
example : ∃ t t', Tuner.init (C := Configuration Rat) ⟨3, 1, 1, .fastestAbs, [loggerStrategy], none⟩ [lcCfg 9 2, lcCfg 10 1, lcCfg 10 2] [] = .ok t ∧
    runCalls ⟨3, 1, 1, .fastestAbs, [loggerStrategy], none⟩ t [.nextConfig, .reject (lcCfg 9 2) true, .measure 7 true, .bump false, .nextConfig,
      .measure 5 true, .bump false] = .ok t' ∧ loggedOf t'.strat (lcCfg 10 1) = [(7, 0)] ∧ loggedOf t'.strat (lcCfg 10 2) = [(5, 1)] := by
  refine ⟨_, _, rfl, rfl, ?_, ?_⟩ <;> decide +kernel

end Verif
