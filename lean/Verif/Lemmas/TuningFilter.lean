import Verif.Lemmas.TuningPhase
/-! A tuner whose strategies only narrow the search space at the begin of a phase behaves like a tuner with full search of the
narrowed space. -/
namespace Verif

variable {σ C : Type} [DecidableEq C]

/-- The configurations with `k`, in the order of the search space or in the opposite one. -/
def pick (rev : Bool) (k : C → Bool) (S : List C) : List C :=
  match rev with
  | true => (S.filter k).reverse
  | false => S.filter k

omit [DecidableEq C] in
theorem mem_pick {rev : Bool} {k : C → Bool} {S : List C} {x : C} : x ∈ pick rev k S ↔ x ∈ S ∧ k x = true := by
  cases rev <;> simp [pick]

omit [DecidableEq C] in
theorem pick_filter {rev : Bool} {k f : C → Bool} {S : List C} : pick rev k (S.filter f) = (pick rev k S).filter f := by
  have h : (S.filter f).filter k = (S.filter k).filter f := by
    rw [List.filter_filter, List.filter_filter]
    apply List.filter_congr
    intro x _
    rw [Bool.and_comm]
  cases rev with
  | true => simp only [pick]; rw [h, List.filter_reverse]
  | false => exact h

omit [DecidableEq C] in
theorem pick_length {rev : Bool} {k : C → Bool} {S : List C} : (pick rev k S).length ≤ S.length := by
  cases rev <;> simp [pick, List.length_filter_le]

omit [DecidableEq C] in
theorem pick_nodup {rev : Bool} {k : C → Bool} {S : List C} (h : S.Nodup) : (pick rev k S).Nodup := by
  cases rev with
  | true => exact List.nodup_reverse.2 (h.filter _)
  | false => exact h.filter _

/-- In phase `p` the strategies select the configurations with `k`, and leave the queue alone afterwards. `Inv` relates the
queue to the state of the strategies while the phase lasts. -/
structure Narrows (cfg : TunerCfg σ C) (v : C → Verdict) (S0 : List C) (p : Nat) (k : C → Bool) (rev : Bool) (Inv : List C → σ → Prop) :
    Prop where
  reset : ∀ S s it ev, Keeps v S0 S →
    (runReset it p ev cfg.strategies S.reverse s).1 = (pick rev k S).reverse ∧
      Inv (pick rev k S).reverse (runReset it p ev cfg.strategies S.reverse s).2
  optimize : ∀ q s ev, Inv q s → (runOptimize ev cfg.strategies q s).1 = q ∧ Inv q (runOptimize ev cfg.strategies q s).2
  raw : ∀ q s ev, Inv q s → (runOptimizeRaw ev cfg.strategies q s).1 = q ∧ Inv q (runOptimizeRaw ev cfg.strategies q s).2
  sub : ∀ q q' s, Inv q s → q'.Sublist q → Inv q' s
  evidence : ∀ q s c e, Inv q s → Inv q (cfg.strategies.foldl (fun s st => st.addEvidence s c e) s)
  reject : ∀ q s c b, Inv q s → Inv q (cfg.strategies.foldl (fun s st => st.reject s c b) s)

/-- Full search with the same constants. -/
def TunerCfg.full (cfg : TunerCfg σ C) : TunerCfg σ C := { cfg with strategies := [] }

/-- The tuner `t` and the full-search tuner `t0` agree on everything but the strategies; the search space of `t0` is the
narrowed one. -/
structure Agree (v : C → Verdict) (S0 : List C) (k : C → Bool) (rev : Bool) (t t0 : Tuner σ C) : Prop where
  iteration : t.iteration = t0.iteration
  tuningPhase : t.tuningPhase = t0.tuningPhase
  iterationBaseline : t.iterationBaseline = t0.iterationBaseline
  isTuning : t.isTuning = t0.isTuning
  forceRetune : t.forceRetune = t0.forceRetune
  samplesNot : t.samplesNot = t0.samplesNot
  samplesReb : t.samplesReb = t0.samplesReb
  evidence : t.evidence = t0.evidence
  queue : t.queue = t0.queue
  space : t0.searchSpace = pick rev k t.searchSpace
  keeps : Keeps v S0 t.searchSpace
  compat : TwoCompatible v t0.searchSpace

/-- … and inside of phase `p` the strategies are in the state for this phase. -/
structure InPhase (cfg : TunerCfg σ C) (v : C → Verdict) (S0 : List C) (p : Nat) (k : C → Bool) (rev : Bool) (Inv : List C → σ → Prop)
    (t t0 : Tuner σ C) : Prop extends Agree v S0 k rev t t0 where
  phase : t.tuningPhase = p
  tuning : t.isTuning = true → Inv t.queue t.strat
  idle : t.isTuning = false → (∃ c, t.queue = [c]) ∨
    ((t.iteration % cfg.tuningInterval = 0 ∨ t.forceRetune = true) ∧ cfg.maxSamples ≤ t.numSamples)

variable {cfg : TunerCfg σ C} {v : C → Verdict} {S0 : List C} {p : Nat} {k : C → Bool} {rev : Bool} {Inv : List C → σ → Prop}

omit [DecidableEq C] in
theorem Agree.trivials {t t0 : Tuner σ C} (h : Agree v S0 k rev t t0) : t.trivial = false ∧ t0.trivial = false := by
  have h0 : t0.searchSpace.length ≠ 1 := h.compat.length
  have h1 : t.searchSpace.length ≠ 1 := by
    have h2 : TwoCompatible v t.searchSpace := by
      obtain ⟨a, ha, b, hb, hab, x, y⟩ := h.compat
      rw [h.space] at ha hb
      exact ⟨a, (mem_pick.1 ha).1, b, (mem_pick.1 hb).1, hab, x, y⟩
    exact h2.length
  exact ⟨by simpa [Tuner.trivial] using h1, by simpa [Tuner.trivial] using h0⟩

omit [DecidableEq C] in
theorem Agree.inTuning {t t0 : Tuner σ C} (h : Agree v S0 k rev t t0) : t.inTuningPhase cfg = t0.inTuningPhase cfg.full := by
  unfold Tuner.inTuningPhase
  rw [h.trivials.1, h.trivials.2, h.iteration, h.isTuning, h.forceRetune]
  rfl

omit [DecidableEq C] in
theorem Agree.numSamples {t t0 : Tuner σ C} (h : Agree v S0 k rev t t0) : t.numSamples = t0.numSamples := by
  unfold Tuner.numSamples
  rw [h.samplesNot, h.samplesReb]

omit [DecidableEq C] in
theorem Agree.current {t t0 : Tuner σ C} (h : Agree v S0 k rev t t0) : t.currentConfig = t0.currentConfig := by
  unfold Tuner.currentConfig
  rw [h.queue]

/-- The state of the tuner after the strategies have been asked, `tuneConfiguration`. -/
def tuned (cfg : TunerCfg σ C) (t : Tuner σ C) : Tuner σ C :=
  if (t.iteration % cfg.tuningInterval = 0 ∧ !t.isTuning) ∨ t.forceRetune then
    let r := runReset t.iteration t.tuningPhase t.evidence cfg.strategies t.searchSpace.reverse t.strat
    { t with samplesNot := [], samplesReb := [], isTuning := true, forceRetune := false, iterationBaseline := 0,
             queue := r.1, strat := r.2 }
  else
    let r := runOptimize t.evidence cfg.strategies t.queue.dropLast t.strat
    { t with samplesNot := [], samplesReb := [], isTuning := true, queue := r.1, strat := r.2 }

theorem tuneConfiguration_eq (cfg : TunerCfg σ C) (t : Tuner σ C) : t.tuneConfiguration cfg =
    if t.queue.isEmpty then .ub
    else if (tuned cfg t).queue.isEmpty then
      (getOptimalConfiguration (tuned cfg t).evidence (tuned cfg t).tuningPhase).bind fun c =>
        .ok ({ tuned cfg t with
               queue := [c], isTuning := false, samplesReb := resizeVec (tuned cfg t).samplesReb cfg.maxSamples,
               iterationBaseline := 0 }, false)
    else .ok (tuned cfg t, (tuned cfg t).isTuning) := by
  rfl

theorem tuned_agree (hN : Narrows cfg v S0 p k rev Inv) {t t0 : Tuner σ C} (h : InPhase cfg v S0 p k rev Inv t t0)
    (hin : t.inTuningPhase cfg = true) :
    InPhase cfg v S0 p k rev Inv (tuned cfg t) (tuned cfg.full t0) := by
  have hcond : ((t0.iteration % cfg.full.tuningInterval = 0 ∧ (!t0.isTuning) = true) ∨ t0.forceRetune = true) ↔
      ((t.iteration % cfg.tuningInterval = 0 ∧ (!t.isTuning) = true) ∨ t.forceRetune = true) := by
    rw [h.iteration, h.isTuning, h.forceRetune]; rfl
  unfold tuned
  by_cases hc : (t.iteration % cfg.tuningInterval = 0 ∧ (!t.isTuning) = true) ∨ t.forceRetune = true
  · rw [if_pos hc, if_pos (hcond.2 hc)]
    have hp := h.phase
    obtain ⟨r1, r2⟩ := hN.reset t.searchSpace t.strat t.iteration t.evidence h.keeps
    rw [← hp] at r1 r2
    refine ⟨⟨h.iteration, h.tuningPhase, rfl, rfl, rfl, rfl, rfl, h.evidence, ?_, h.space, h.keeps, h.compat⟩, hp, ?_, ?_⟩
    · show (runReset _ _ _ _ _ _).1 = t0.searchSpace.reverse
      rw [r1, h.space]
    · intro _
      show Inv (runReset _ _ _ _ _ _).1 _
      rw [r1]; exact r2
    · intro hf; simp at hf
  · rw [if_neg hc, if_neg (fun x => hc (hcond.1 x))]
    have htun : t.isTuning = true := by
      rw [not_or, not_and] at hc
      unfold Tuner.inTuningPhase at hin
      cases hb : t.isTuning with
      | true => rfl
      | false =>
        rw [hb] at hc hin
        simp at hc hin
        exact absurd hin.1 (by
          rintro (x | x)
          · exact hc.1 x
          · rw [hc.2] at x; simp at x)
    have hI := hN.sub _ t.queue.dropLast _ (h.tuning htun) (List.dropLast_sublist _)
    obtain ⟨r1, r2⟩ := hN.optimize _ _ t.evidence hI
    refine ⟨⟨h.iteration, h.tuningPhase, h.iterationBaseline, rfl, h.forceRetune, rfl, rfl, h.evidence, ?_, h.space, h.keeps,
      h.compat⟩, h.phase, ?_, ?_⟩
    · show (runOptimize _ _ _ _).1 = t0.queue.dropLast
      rw [r1, h.queue]
    · intro _
      show Inv (runOptimize _ _ _ _).1 _
      rw [r1]; exact r2
    · intro hf; simp at hf

/-- `getNextConfig` agrees. -/
theorem getNext_agree (hN : Narrows cfg v S0 p k rev Inv) {t t0 : Tuner σ C} (h : InPhase cfg v S0 p k rev Inv t t0)
    {r0 : Tuner σ C × C × Bool} (hr : t0.getNextConfig cfg.full = .ok r0) :
    ∃ t', t.getNextConfig cfg = .ok (t', r0.2) ∧ InPhase cfg v S0 p k rev Inv t' r0.1 := by
  unfold Tuner.getNextConfig at hr ⊢
  have hms : cfg.full.maxSamples = cfg.maxSamples := rfl
  rw [← h.inTuning (cfg := cfg), ← h.current, ← h.numSamples, hms] at hr
  by_cases h1 : t.inTuningPhase cfg = true
  · rw [h1] at hr ⊢
    simp only [Bool.not_true, Bool.false_eq_true, if_false] at hr ⊢
    split_ifs at hr ⊢ with h2
    · obtain ⟨c, hc, hr⟩ := Outcome.bind_ok.1 hr
      cases hr
      rw [hc]
      exact ⟨t, rfl, h⟩
    · rw [tuneConfiguration_eq] at hr ⊢
      have hT := tuned_agree hN h h1
      rw [← h.queue] at hr
      rw [← hT.queue] at hr
      split_ifs at hr ⊢ with h3 h4
      · simp [Outcome.bind] at hr
      · rw [← hT.evidence, ← hT.tuningPhase] at hr
        obtain ⟨r, hr1, hr⟩ := Outcome.bind_ok.1 hr
        obtain ⟨c, hc, hr1⟩ := Outcome.bind_ok.1 hr1
        cases hr1
        rw [hc]
        obtain ⟨c', hc', hr⟩ := Outcome.bind_ok.1 hr
        cases hr
        have hcc : c' = c := by simpa [Tuner.currentConfig] using hc'.symm
        subst hcc
        refine ⟨_, rfl, ⟨hT.iteration, hT.tuningPhase, rfl, rfl, hT.forceRetune, hT.samplesNot, ?_, hT.evidence, rfl, hT.space,
          hT.keeps, hT.compat⟩, hT.phase, ?_, ?_⟩
        · show resizeVec _ _ = resizeVec _ _
          rw [hT.samplesReb]; rfl
        · intro hf; simp at hf
        · intro _; exact .inl ⟨_, rfl⟩
      · obtain ⟨r, hr1, hr⟩ := Outcome.bind_ok.1 hr
        cases hr1
        obtain ⟨c', hc', hr⟩ := Outcome.bind_ok.1 hr
        cases hr
        rw [← hT.current] at hc'
        refine ⟨tuned cfg t, ?_, hT⟩
        simp only [Outcome.bind, hc', hT.isTuning]
  · have h1' : t.inTuningPhase cfg = false := by simpa using h1
    rw [h1'] at hr ⊢
    simp only [Bool.not_false, if_true] at hr ⊢
    obtain ⟨c, hc, hr⟩ := Outcome.bind_ok.1 hr
    cases hr
    rw [hc]
    exact ⟨t, rfl, h⟩

/-- `rejectConfig` of the current configuration agrees. -/
theorem reject_agree (hN : Narrows cfg v S0 p k rev Inv) {t t0 : Tuner σ C} (h : InPhase cfg v S0 p k rev Inv t t0)
    (hin : t.isTuning = true ∨ ∃ c, t.queue = [c])
    {c : C} {b : Bool} (hb : b = true → v c = .incompatible) (hcur : t.currentConfig = .ok c)
    {r0 : Tuner σ C × C × Bool} (hr : t0.rejectConfig cfg.full c b = .ok r0) :
    ∃ t', t.rejectConfig cfg c b = .ok (t', r0.2) ∧ InPhase cfg v S0 p k rev Inv t' r0.1 ∧
      t'.isTuning = true := by
  have htun : t.isTuning = true := by
    rcases hin with h1 | ⟨d, hd⟩
    · exact h1
    · exfalso
      have hdc : d = c := by simpa [Tuner.currentConfig, hd] using hcur
      subst hdc
      unfold Tuner.rejectConfig at hr
      rw [h.trivials.2, ← h.queue, hd] at hr
      simp [TunerCfg.full, runOptimizeRaw, Tuner.currentConfig, Outcome.bind] at hr
  unfold Tuner.rejectConfig at hr ⊢
  rw [h.trivials.2] at hr
  rw [h.trivials.1]
  simp only [Bool.false_eq_true, if_false] at hr ⊢
  have hI := hN.sub _ (t.queue.filter (fun x => x ≠ c)) _ (h.tuning htun) (List.filter_sublist)
  have hI2 := hN.reject _ _ c b hI
  obtain ⟨r1, r2⟩ := hN.raw _ _ t.evidence hI2
  simp only [TunerCfg.full, List.foldl_nil, runOptimizeRaw] at hr
  obtain ⟨c', hc', hr⟩ := Outcome.bind_ok.1 hr
  cases hr
  simp only [Tuner.currentConfig] at hc' ⊢
  rw [r1, h.queue]
  split at hc'
  · rename_i d hd
    cases hc'
    refine ⟨_, rfl, ⟨⟨h.iteration, h.tuningPhase, h.iterationBaseline, h.isTuning, h.forceRetune, h.samplesNot, h.samplesReb,
      h.evidence, rfl, ?_, ?_, ?_⟩, h.phase, ?_, ?_⟩, htun⟩
    · show (if b = true then _ else _) = pick rev k (if b = true then _ else _)
      split_ifs
      · rw [h.space, pick_filter]
      · exact h.space
    · show Keeps v S0 (if b = true then _ else _)
      split_ifs with hbt
      · refine h.keeps.trans ⟨_, rfl, ?_⟩
        intro x hx
        simp only [decide_eq_true_eq]
        rintro rfl
        exact hx (hb hbt)
      · exact h.keeps
    · show TwoCompatible v (if b = true then _ else _)
      split_ifs with hbt
      · exact h.compat.filter (hb hbt)
      · exact h.compat
    · intro _
      show Inv (t0.queue.filter _) _
      rw [← h.queue]
      exact r2
    · intro hf
      exact absurd htun (by rw [show t.isTuning = false from hf]; simp)
  · simp at hc'

theorem selectLoop_agree (hN : Narrows cfg v S0 p k rev Inv) : ∀ (fuel : Nat) {t t0 : Tuner σ C} (c : C) (b : Bool),
    InPhase cfg v S0 p k rev Inv t t0 → (t.isTuning = true ∨ ∃ c, t.queue = [c]) → t.currentConfig = .ok c →
    ∀ {r0 : Tuner σ C × Bool × List C}, selectLoop cfg.full v fuel t0 c b = .ok r0 →
    ∃ t', selectLoop cfg v fuel t c b = .ok (t', r0.2) ∧ InPhase cfg v S0 p k rev Inv t' r0.1 ∧
      (t'.isTuning = true ∨ ∃ c, t'.queue = [c]) := by
  intro fuel
  induction fuel with
  | zero => intro t t0 c b _ _ _ r0 hr; simp [selectLoop] at hr
  | succ fuel ih =>
    intro t t0 c b h hin hcur r0 hr
    unfold selectLoop at hr ⊢
    cases hv : v c with
    | applicable =>
      rw [hv] at hr
      simp only at hr ⊢
      cases hr
      exact ⟨t, rfl, h, hin⟩
    | incompatible =>
      rw [hv] at hr
      simp only at hr ⊢
      obtain ⟨r1, hr1, hr⟩ := Outcome.bind_ok.1 hr
      obtain ⟨t1, a1, a2, a3⟩ := reject_agree hN h hin (b := true) (fun _ => hv) hcur hr1
      rw [a1]
      simp only [Outcome.bind]
      have hc1 : t1.currentConfig = .ok r1.2.1 := by
        rw [a2.current]
        exact currentConfig_ok.2 (rejectConfig_ok hr1).2.2.1
      exact ih r1.2.1 r1.2.2 a2 (.inl a3) hc1 hr
    | notApplicable =>
      rw [hv] at hr
      simp only at hr ⊢
      obtain ⟨r1, hr1, hr⟩ := Outcome.bind_ok.1 hr
      obtain ⟨t1, a1, a2, a3⟩ := reject_agree hN h hin (b := false) (fun x => by simp at x) hcur hr1
      rw [a1]
      simp only [Outcome.bind]
      have hc1 : t1.currentConfig = .ok r1.2.1 := by
        rw [a2.current]
        exact currentConfig_ok.2 (rejectConfig_ok hr1).2.2.1
      obtain ⟨r2, hr2, hr⟩ := Outcome.bind_ok.1 hr
      cases hr
      obtain ⟨t2, b1, b2, b3⟩ := ih r1.2.1 r1.2.2 a2 (.inl a3) hc1 hr2
      rw [b1]
      exact ⟨t2, rfl, b2, b3⟩

theorem getNext_current {cfg : TunerCfg σ C} {t : Tuner σ C} {r : Tuner σ C × C × Bool} (h : t.getNextConfig cfg = .ok r) :
    r.1.currentConfig = .ok r.2.1 := by
  unfold Tuner.getNextConfig at h
  split_ifs at h
  · obtain ⟨c, hc, h⟩ := Outcome.bind_ok.1 h
    cases h; exact hc
  · obtain ⟨c, hc, h⟩ := Outcome.bind_ok.1 h
    cases h; exact hc
  · obtain ⟨r, -, h⟩ := Outcome.bind_ok.1 h
    obtain ⟨c, hc, h⟩ := Outcome.bind_ok.1 h
    cases h; exact hc

/-- After `getNextConfig` the tuner either is tuning or has settled. -/
theorem getNext_running {t t0 : Tuner σ C} (h : InPhase cfg v S0 p k rev Inv t t0)
    {r : Tuner σ C × C × Bool} (hr : t.getNextConfig cfg = .ok r) : r.1.isTuning = true ∨ ∃ c, r.1.queue = [c] := by
  have htriv := h.trivials.1
  have key : t.isTuning = true ∨ (∃ c, t.queue = [c]) ∨
      (t.inTuningPhase cfg = true ∧ cfg.maxSamples ≤ t.numSamples) := by
    cases hb : t.isTuning with
    | true => exact .inl rfl
    | false =>
      rcases h.idle hb with h1 | ⟨h1, h2⟩
      · exact .inr (.inl h1)
      · refine .inr (.inr ⟨?_, h2⟩)
        unfold Tuner.inTuningPhase
        rw [htriv]
        rcases h1 with h1 | h1 <;> simp [h1]
  unfold Tuner.getNextConfig at hr
  split_ifs at hr with h1 h2
  · obtain ⟨c, hc, hr⟩ := Outcome.bind_ok.1 hr
    cases hr
    rcases key with h3 | h3 | h3
    · exact .inl h3
    · exact .inr h3
    · rw [h3.1] at h1; simp at h1
  · obtain ⟨c, hc, hr⟩ := Outcome.bind_ok.1 hr
    cases hr
    rcases key with h3 | h3 | h3
    · exact .inl h3
    · exact .inr h3
    · omega
  · obtain ⟨r1, hr1, hr⟩ := Outcome.bind_ok.1 hr
    obtain ⟨c, hc, hr⟩ := Outcome.bind_ok.1 hr
    cases hr
    rw [tuneConfiguration_eq] at hr1
    split_ifs at hr1
    · obtain ⟨c, -, hr1⟩ := Outcome.bind_ok.1 hr1
      cases hr1
      exact .inr ⟨_, rfl⟩
    · cases hr1
      left
      show (tuned cfg t).isTuning = true
      unfold tuned
      split_ifs <;> rfl

/-- The tuner with one more sample, `addMeasurement`. -/
def withSample (t : Tuner σ C) (sample : Int) (rebuilt : Bool) : Tuner σ C :=
  if rebuilt then { t with samplesReb := t.samplesReb ++ [sample] } else { t with samplesNot := t.samplesNot ++ [sample] }

/-- The value and the evidence that a complete set of samples yields, `addMeasurement`. -/
def newEvidence (cfg : TunerCfg σ C) (t : Tuner σ C) (conf : C) : EvidenceMap C × Int :=
  let reduced := estimateRuntime cfg.rebuildFrequency cfg.selector t.samplesReb t.samplesNot
  let ev := addEvidence t.evidence conf ⟨t.iteration, t.tuningPhase, reduced⟩
  let smoothed := match cfg.smooth with
    | some f => min reduced (f (getEvidence ev conf))
    | none => reduced
  (setLastEvidence ev conf smoothed, smoothed)

theorem addMeasurement_eq (cfg : TunerCfg σ C) (t : Tuner σ C) (sample : Int) (rebuilt : Bool) :
    t.addMeasurement cfg sample rebuilt = t.currentConfig.bind fun conf =>
      if t.numSamples ≥ cfg.maxSamples then .throws
      else if (withSample t sample rebuilt).numSamples = cfg.maxSamples then
        .ok { withSample t sample rebuilt with
              evidence := (newEvidence cfg (withSample t sample rebuilt) conf).1
              strat := cfg.strategies.foldl (fun s st => st.addEvidence s conf
                ⟨(withSample t sample rebuilt).iteration, (withSample t sample rebuilt).tuningPhase,
                  (newEvidence cfg (withSample t sample rebuilt) conf).2⟩) (withSample t sample rebuilt).strat }
      else .ok (withSample t sample rebuilt) := rfl

omit [DecidableEq C] in
theorem withSample_agree {t t0 : Tuner σ C} (h : InPhase cfg v S0 p k rev Inv t t0)
    (hrun : t.isTuning = true ∨ ∃ c, t.queue = [c]) (x : Int) (rb : Bool) :
    InPhase cfg v S0 p k rev Inv (withSample t x rb) (withSample t0 x rb) := by
  have hidle : t.isTuning = false → ∃ c, t.queue = [c] := by
    intro hf
    rcases hrun with h1 | h1
    · rw [h1] at hf; simp at hf
    · exact h1
  cases rb with
  | true =>
    refine ⟨⟨h.iteration, h.tuningPhase, h.iterationBaseline, h.isTuning, h.forceRetune, h.samplesNot, ?_, h.evidence, h.queue,
      h.space, h.keeps, h.compat⟩, h.phase, h.tuning, fun hf => .inl (hidle hf)⟩
    show t.samplesReb ++ _ = t0.samplesReb ++ _
    rw [h.samplesReb]
  | false =>
    refine ⟨⟨h.iteration, h.tuningPhase, h.iterationBaseline, h.isTuning, h.forceRetune, ?_, h.samplesReb, h.evidence, h.queue,
      h.space, h.keeps, h.compat⟩, h.phase, h.tuning, fun hf => .inl (hidle hf)⟩
    show t.samplesNot ++ _ = t0.samplesNot ++ _
    rw [h.samplesNot]

/-- The measurement agrees. -/
theorem measure_agree (hN : Narrows cfg v S0 p k rev Inv) {t t0 : Tuner σ C} (h : InPhase cfg v S0 p k rev Inv t t0)
    (hrun : t.isTuning = true ∨ ∃ c, t.queue = [c]) {st : Bool} {x : Int} {rb : Bool} {r0 : Tuner σ C}
    (hr : t0.measure cfg.full true st x rb = .ok r0) :
    ∃ t', t.measure cfg true st x rb = .ok t' ∧ InPhase cfg v S0 p k rev Inv t' r0 ∧
      (t'.isTuning = true ∨ ∃ c, t'.queue = [c]) := by
  unfold Tuner.measure at hr ⊢
  split_ifs at hr ⊢ with hst
  · rw [addMeasurement_eq] at hr ⊢
    have hms : cfg.full.maxSamples = cfg.maxSamples := rfl
    have hw := withSample_agree h hrun x rb
    have hwrun : (withSample t x rb).isTuning = true ∨ ∃ c, (withSample t x rb).queue = [c] := by
      unfold withSample; cases rb <;> exact hrun
    rw [← h.current, ← h.numSamples, hms, ← hw.numSamples] at hr
    obtain ⟨c, hc, hr⟩ := Outcome.bind_ok.1 hr
    rw [hc]
    simp only [Outcome.bind] at hr ⊢
    by_cases h1 : t.numSamples ≥ cfg.maxSamples
    · rw [if_pos h1] at hr; simp at hr
    · rw [if_neg h1] at hr ⊢
      by_cases h2 : (withSample t x rb).numSamples = cfg.maxSamples
      · rw [if_pos h2] at hr ⊢
        cases hr
        have hev : newEvidence cfg (withSample t x rb) c = newEvidence cfg.full (withSample t0 x rb) c := by
          unfold newEvidence
          rw [hw.samplesReb, hw.samplesNot, hw.evidence, hw.iteration, hw.tuningPhase]
          rfl
        refine ⟨_, rfl, ⟨⟨hw.iteration, hw.tuningPhase, hw.iterationBaseline, hw.isTuning, hw.forceRetune, hw.samplesNot,
          hw.samplesReb, ?_, hw.queue, hw.space, hw.keeps, hw.compat⟩, hw.phase, ?_, hw.idle⟩, hwrun⟩
        · show (newEvidence _ _ _).1 = (newEvidence _ _ _).1
          rw [hev]
        · intro ht
          exact hN.evidence _ _ _ _ (hw.tuning ht)
      · rw [if_neg h2] at hr ⊢
        cases hr
        exact ⟨_, rfl, hw, hwrun⟩
  · cases hr
    exact ⟨t, rfl, h, hrun⟩

theorem tunerIteration_agree (hN : Narrows cfg v S0 p k rev Inv) {fuel : Nat} {t t0 : Tuner σ C} (h : InPhase cfg v S0 p k rev Inv t t0)
    {x : Int × Bool} {r0 : Tuner σ C} (hr : tunerIteration cfg.full fuel v t0 x = .ok r0) :
    ∃ t', tunerIteration cfg fuel v t x = .ok t' ∧ InPhase cfg v S0 p k rev Inv t' r0 ∧
      (t'.isTuning = true ∨ ∃ c, t'.queue = [c]) := by
  unfold tunerIteration Tuner.select at hr ⊢
  obtain ⟨r1, hr1, hr⟩ := Outcome.bind_ok.1 hr
  obtain ⟨r2, hr2, hr1⟩ := Outcome.bind_ok.1 hr1
  obtain ⟨t1, a1, a2⟩ := getNext_agree hN h hr2
  rw [a1]
  simp only [Outcome.bind]
  have hrun := getNext_running h a1
  have hcur := getNext_current a1
  obtain ⟨t2, b1, b2, b3⟩ := selectLoop_agree hN fuel _ _ a2 hrun hcur hr1
  rw [b1]
  exact measure_agree hN b2 b3 hr

theorem selectLoop_iteration {cfg : TunerCfg σ C} {v : C → Verdict} : ∀ (fuel : Nat) (t : Tuner σ C) (c : C) (b : Bool)
    {r : Tuner σ C × Bool × List C}, selectLoop cfg v fuel t c b = .ok r → r.1.iteration = t.iteration := by
  intro fuel
  induction fuel with
  | zero => intro t c b r h; simp [selectLoop] at h
  | succ fuel ih =>
    intro t c b r h
    unfold selectLoop at h
    split at h
    · obtain ⟨r1, h1, h⟩ := Outcome.bind_ok.1 h
      rw [ih _ _ _ h]
      exact (rejectConfig_ok h1).2.1.1
    · obtain ⟨r1, h1, h⟩ := Outcome.bind_ok.1 h
      obtain ⟨r2, h2, h⟩ := Outcome.bind_ok.1 h
      cases h
      rw [ih _ _ _ h2]
      exact (rejectConfig_ok h1).2.1.1
    · cases h; rfl

theorem tunerIteration_iteration {cfg : TunerCfg σ C} {fuel : Nat} {v : C → Verdict} {t t' : Tuner σ C} {x : Int × Bool}
    (h : tunerIteration cfg fuel v t x = .ok t') : t'.iteration = t.iteration := by
  unfold tunerIteration Tuner.select at h
  obtain ⟨r1, h1, h⟩ := Outcome.bind_ok.1 h
  obtain ⟨r2, h2, h1⟩ := Outcome.bind_ok.1 h1
  have e1 : r2.1.iteration = t.iteration := by
    unfold Tuner.getNextConfig at h2
    split_ifs at h2
    · obtain ⟨c, hc, h2⟩ := Outcome.bind_ok.1 h2
      cases h2; rfl
    · obtain ⟨c, hc, h2⟩ := Outcome.bind_ok.1 h2
      cases h2; rfl
    · obtain ⟨r, hr, h2⟩ := Outcome.bind_ok.1 h2
      obtain ⟨c, hc, h2⟩ := Outcome.bind_ok.1 h2
      cases h2
      have ht : (tuned cfg t).iteration = t.iteration := by unfold tuned; split_ifs <;> rfl
      rw [tuneConfiguration_eq] at hr
      split_ifs at hr
      · obtain ⟨c, -, hr⟩ := Outcome.bind_ok.1 hr
        cases hr
        exact ht
      · cases hr
        exact ht
  have e2 := selectLoop_iteration _ _ _ _ h1
  unfold Tuner.measure at h
  split_ifs at h
  · rw [(addMeasurement_ok h).2.2.2.2.2.2.2, e2, e1]
  · cases h
    rw [e2, e1]

omit [DecidableEq C] in
/-- Counting the iteration, in the middle of a phase. -/
theorem bump_agree {t t0 : Tuner σ C} (h : Agree v S0 k rev t t0) : Agree v S0 k rev (t.bump cfg false) (t0.bump cfg.full false) := by
  refine ⟨?_, ?_, ?_, h.isTuning, h.forceRetune, h.samplesNot, h.samplesReb, h.evidence, h.queue, h.space, h.keeps, h.compat⟩
  · show t.iteration + 1 = t0.iteration + 1
    rw [h.iteration]
  · show (if (t.iteration + 1) % _ = 0 then _ else _) = (if (t0.iteration + 1) % _ = 0 then _ else _)
    rw [h.iteration, h.tuningPhase]; rfl
  · unfold Tuner.bump
    simp only
    rw [h.inTuning (cfg := cfg), h.iterationBaseline]
    rfl

/-- One whole tuning interval agrees. -/
theorem tunerRun_agree (hN : Narrows cfg v S0 p k rev Inv) {fuel : Nat} : ∀ (xs : List (Int × Bool)) {j : Nat} {t t0 : Tuner σ C},
    InPhase cfg v S0 p k rev Inv t t0 → t.iteration % cfg.tuningInterval = j → j + xs.length ≤ cfg.tuningInterval →
    ∀ {r0 : Tuner σ C × List C}, tunerRun cfg.full fuel v t0 xs = .ok r0 →
    ∃ t', tunerRun cfg fuel v t xs = .ok (t', r0.2) ∧ Agree v S0 k rev t' r0.1 := by
  intro xs
  induction xs with
  | nil =>
    intro j t t0 h _ _ r0 hr
    simp only [tunerRun] at hr ⊢
    cases hr
    exact ⟨t, rfl, h.toAgree⟩
  | cons x xs ih =>
    intro j t t0 h hj hlen r0 hr
    simp only [tunerRun] at hr ⊢
    obtain ⟨u0, hu0, hr⟩ := Outcome.bind_ok.1 hr
    obtain ⟨c, hc, hr⟩ := Outcome.bind_ok.1 hr
    obtain ⟨r, hr1, hr⟩ := Outcome.bind_ok.1 hr
    cases hr
    obtain ⟨u, a1, a2, a3⟩ := tunerIteration_agree hN h hu0
    rw [a1]
    simp only [Outcome.bind]
    rw [a2.current, hc]
    simp only
    have hit : u.iteration = t.iteration := tunerIteration_iteration a1
    simp only [List.length_cons] at hlen
    by_cases hlast : j + 1 = cfg.tuningInterval
    · have : xs = [] := by
        cases xs with
        | nil => rfl
        | cons => simp at hlen; omega
      subst this
      simp only [tunerRun] at hr1 ⊢
      cases hr1
      exact ⟨_, rfl, bump_agree a2.toAgree⟩
    · have hmod : (u.iteration + 1) % cfg.tuningInterval = j + 1 := by
        rw [hit, Nat.add_mod, hj, Nat.mod_eq_of_lt (show 1 < cfg.tuningInterval by omega), Nat.mod_eq_of_lt (by omega)]
      have hb : InPhase cfg v S0 p k rev Inv (u.bump cfg false) (u0.bump cfg.full false) := by
        refine ⟨bump_agree a2.toAgree, ?_, a2.tuning, ?_⟩
        · show (if (u.iteration + 1) % _ = 0 then _ else _) = p
          rw [hmod, if_neg (by omega)]
          exact a2.phase
        · intro hf
          rcases a3 with a3 | a3
          · rw [show u.isTuning = false from hf] at a3; simp at a3
          · exact .inl a3
      obtain ⟨t', b1, b2⟩ := ih (j := j + 1) hb hmod (by omega) hr1
      rw [b1]
      exact ⟨t', rfl, b2⟩

theorem selectLoop_noForce {cfg : TunerCfg σ C} {v : C → Verdict} : ∀ (fuel : Nat) (t : Tuner σ C) (c : C) (b : Bool)
    {r : Tuner σ C × Bool × List C}, selectLoop cfg v fuel t c b = .ok r → r.1.forceRetune = t.forceRetune := by
  intro fuel
  induction fuel with
  | zero => intro t c b r h; simp [selectLoop] at h
  | succ fuel ih =>
    intro t c b r h
    unfold selectLoop at h
    split at h
    · obtain ⟨r1, h1, h⟩ := Outcome.bind_ok.1 h
      rw [ih _ _ _ h]
      exact (rejectConfig_ok h1).2.1.2.2.2.1
    · obtain ⟨r1, h1, h⟩ := Outcome.bind_ok.1 h
      obtain ⟨r2, h2, h⟩ := Outcome.bind_ok.1 h
      cases h
      rw [ih _ _ _ h2]
      exact (rejectConfig_ok h1).2.1.2.2.2.1
    · cases h; rfl

theorem tunerIteration_noForce {cfg : TunerCfg σ C} {fuel : Nat} {v : C → Verdict} {t t' : Tuner σ C} {x : Int × Bool}
    (hf : t.forceRetune = false) (h : tunerIteration cfg fuel v t x = .ok t') : t'.forceRetune = false := by
  unfold tunerIteration Tuner.select at h
  obtain ⟨r1, h1, h⟩ := Outcome.bind_ok.1 h
  obtain ⟨r2, h2, h1⟩ := Outcome.bind_ok.1 h1
  have e1 : r2.1.forceRetune = false := by
    unfold Tuner.getNextConfig at h2
    split_ifs at h2
    · obtain ⟨c, hc, h2⟩ := Outcome.bind_ok.1 h2
      cases h2; exact hf
    · obtain ⟨c, hc, h2⟩ := Outcome.bind_ok.1 h2
      cases h2; exact hf
    · obtain ⟨r, hr, h2⟩ := Outcome.bind_ok.1 h2
      obtain ⟨c, hc, h2⟩ := Outcome.bind_ok.1 h2
      cases h2
      exact (tuneConfiguration_ok hf hr).1
  have e2 := selectLoop_noForce _ _ _ _ h1
  unfold Tuner.measure at h
  split_ifs at h
  · rw [(addMeasurement_ok h).2.2.2.2.2.1, e2, e1]
  · cases h
    rw [e2, e1]

theorem tunerRun_noForce {cfg : TunerCfg σ C} {fuel : Nat} {v : C → Verdict} : ∀ (xs : List (Int × Bool)) {t : Tuner σ C}
    {r : Tuner σ C × List C}, t.forceRetune = false → tunerRun cfg fuel v t xs = .ok r → r.1.forceRetune = false := by
  intro xs
  induction xs with
  | nil => intro t r hf h; simp only [tunerRun] at h; cases h; exact hf
  | cons x xs ih =>
    intro t r hf h
    simp only [tunerRun] at h
    obtain ⟨u, hu, h⟩ := Outcome.bind_ok.1 h
    obtain ⟨c, hc, h⟩ := Outcome.bind_ok.1 h
    obtain ⟨r1, hr1, h⟩ := Outcome.bind_ok.1 h
    cases h
    have hb0 : u.forceRetune = false := tunerIteration_noForce hf hu
    have hb : (u.bump cfg false).forceRetune = false := hb0
    exact ih (r := r1) hb hr1

/-- A tuner right before a tuning interval, with the search space `S0` up to configurations excluded for ever. -/
structure IntervalStart (cfg : TunerCfg σ C) (v : C → Verdict) (S0 : List C) (p : Nat) (t : Tuner σ C) : Prop where
  queue : t.queue ≠ []
  samples : cfg.maxSamples ≤ t.numSamples
  idle : t.isTuning = false
  noForce : t.forceRetune = false
  iter : t.iteration % cfg.tuningInterval = 0
  phase : t.tuningPhase = p
  fresh : EvidenceIs t.evidence p []
  keeps : Keeps v S0 t.searchSpace

omit [DecidableEq C] in
theorem Keeps.pick {v : C → Verdict} {S S' : List C} (h : Keeps v S S') (rev : Bool) (k : C → Bool) :
    Keeps v (pick rev k S) (pick rev k S') := by
  obtain ⟨f, rfl, hf⟩ := h
  exact ⟨f, pick_filter, hf⟩

omit [DecidableEq C] in
theorem Keeps.two {v : C → Verdict} {S S' : List C} (h : Keeps v S S') (hS : TwoCompatible v S) : TwoCompatible v S' := by
  obtain ⟨f, rfl, hf⟩ := h
  obtain ⟨a, ha, b, hb, hab, h1, h2⟩ := hS
  exact ⟨a, List.mem_filter.2 ⟨ha, hf a h1⟩, b, List.mem_filter.2 ⟨hb, hf b h2⟩, hab, h1, h2⟩

/-- One tuning interval with strategies that narrow the search space: the narrowed space is sampled, then its fastest
configuration is used. -/
theorem narrowed_interval {cfg : TunerCfg σ C} (hmax : 0 < cfg.maxSamples) (hsm : cfg.smooth = none)
    {v : C → Verdict} {S0 : List C} (hnd : S0.Nodup) {p fuel : Nat} {k : C → Bool} {rev : Bool} {Inv : List C → σ → Prop}
    (hN : Narrows cfg v S0 p k rev Inv) (htwo : TwoCompatible v (pick rev k S0))
    (hlast : ∀ x, (pick rev k S0).getLast? = some x → v x = .applicable) {apps : List C}
    (happs : apps = (pick rev k S0).filter (fun c => v c = .applicable))
    {t : Tuner σ C} (h : IntervalStart cfg v S0 p t) (hf : S0.length < fuel) {xs : List (Int × Bool)}
    (hlen : xs.length = cfg.tuningInterval) (hfit : apps.length * cfg.maxSamples < cfg.tuningInterval)
    (hval : ∀ i < apps.length, chunkEstimate cfg ((xs.drop (i * cfg.maxSamples)).take cfg.maxSamples) < longMax) :
    ∃ t' i c, i < apps.length ∧ apps[i]? = some c ∧
      (∀ j < apps.length, chunkEstimate cfg ((xs.drop (i * cfg.maxSamples)).take cfg.maxSamples) ≤
        chunkEstimate cfg ((xs.drop (j * cfg.maxSamples)).take cfg.maxSamples)) ∧
      tunerRun cfg fuel v t xs = .ok (t', apps.flatMap (List.replicate cfg.maxSamples) ++
        List.replicate (cfg.tuningInterval - apps.length * cfg.maxSamples) c) ∧
      IntervalStart cfg v S0 (p + 1) t' := by
  have hk := h.keeps.pick rev k
  set t0 : Tuner σ C := { t with searchSpace := pick rev k t.searchSpace } with ht0
  have hsl : t0.searchSpace.length < fuel := by
    obtain ⟨f, hf', -⟩ := h.keeps
    have : t0.searchSpace.length ≤ S0.length := by
      show (pick rev k t.searchSpace).length ≤ _
      rw [hf']
      exact pick_length.trans (List.length_filter_le _ _)
    omega
  have hstart : PhaseStart cfg.full v apps p 0 t0 := by
    refine ⟨h.queue, h.samples, .inl ⟨h.iter, h.idle⟩, h.iter, h.phase, h.fresh, ?_, ?_, hk.two htwo, hk.last hlast⟩
    · rw [happs, ← hk.apps]
    · obtain ⟨f, hf', -⟩ := hk
      show (pick rev k t.searchSpace).Nodup
      rw [hf']
      exact (pick_nodup hnd).filter _
  have hin : InPhase cfg v S0 p k rev Inv t t0 := by
    refine ⟨⟨rfl, rfl, rfl, rfl, rfl, rfl, rfl, rfl, rfl, rfl, h.keeps, hk.two htwo⟩, h.phase, ?_, ?_⟩
    · intro hc; rw [h.idle] at hc; simp at hc
    · intro _; exact .inr ⟨.inl h.iter, h.samples⟩
  obtain ⟨t0', i, c, h1, h2, h3, h4, h5, -⟩ := interval_run (cfg := cfg.full) rfl hmax hsm hstart hsl hlen hfit hval
  obtain ⟨t', a1, a2⟩ := tunerRun_agree hN xs hin h.iter (by omega) h4
  refine ⟨t', i, c, h1, h2, h3, a1, ?_⟩
  have hidle : t'.isTuning = false := by
    rcases h5.trigger with ⟨-, hh⟩ | hh
    · rw [a2.isTuning]; exact hh
    · have hn : t0'.forceRetune = false := tunerRun_noForce xs (t := t0) h.noForce h4
      rw [hn] at hh; simp at hh
  refine ⟨?_, ?_, hidle, tunerRun_noForce xs h.noForce a1, ?_, ?_, ?_, a2.keeps⟩
  · rw [a2.queue]; exact h5.queue
  · rw [a2.numSamples]; exact h5.samples
  · rw [a2.iteration]; exact h5.iter
  · rw [a2.tuningPhase]; exact h5.phase
  · rw [a2.evidence]; exact h5.fresh

end Verif
