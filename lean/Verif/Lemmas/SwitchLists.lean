import Verif.Lemmas.LogicControl
/-! Container switches and list builds when every iteration is one `updateContainer` and one `computeInteractions`. -/
namespace Verif
open Spec

variable {σ C : Type} [DecidableEq C]

theorem builtBeforeUse_append {tr ev : List Event} (h : BuiltBeforeUse tr) (hev : ∀ g, Event.used g ∉ ev) :
    BuiltBeforeUse (tr ++ ev) := by
  intro before gen after heq
  rw [List.append_eq_append_iff] at heq
  rcases heq with ⟨c, h1, h2⟩ | ⟨c, h1, h2⟩
  · exact absurd (by rw [h2]; simp) (hev gen)
  · cases c with
    | nil =>
      simp only [List.nil_append] at h2
      exact absurd (by rw [← h2]; simp) (hev gen)
    | cons x c =>
      simp only [List.cons_append, List.cons.injEq] at h2
      obtain ⟨rfl, h2⟩ := h2
      exact h before gen c h1

theorem builtBeforeUse_snoc {tr : List Event} {gen : Nat} (h : BuiltBeforeUse tr) (hg : Event.built gen ∈ tr) :
    BuiltBeforeUse (tr ++ [Event.used gen]) := by
  intro before g after heq
  rw [List.append_eq_append_iff] at heq
  rcases heq with ⟨c, h1, h2⟩ | ⟨c, h1, h2⟩
  · cases c with
    | nil =>
      simp only [List.append_nil] at h1
      simp only [List.nil_append, List.cons.injEq, Event.used.injEq] at h2
      obtain ⟨rfl, _⟩ := h2
      subst h1
      exact hg
    | cons x c => simp at h2
  · cases c with
    | nil =>
      simp only [List.append_nil] at h1
      simp only [List.nil_append, List.cons.injEq, Event.used.injEq] at h2
      obtain ⟨rfl, _⟩ := h2
      subst h1
      exact hg
    | cons x c =>
      simp only [List.cons_append, List.cons.injEq] at h2
      obtain ⟨rfl, h2⟩ := h2
      exact h before g c h1

/-- The parts of a tuner that rejections do not touch. -/
def SameClock (t t' : Tuner σ C) : Prop :=
  t'.iteration = t.iteration ∧ t'.iterationBaseline = t.iterationBaseline ∧ t'.isTuning = t.isTuning ∧
    t'.forceRetune = t.forceRetune ∧ t'.samplesNot = t.samplesNot ∧ t'.samplesReb = t.samplesReb

omit [DecidableEq C] in
theorem currentConfig_ok {t : Tuner σ C} {c : C} : t.currentConfig = .ok c ↔ t.queue.getLast? = some c := by
  unfold Tuner.currentConfig; split <;> simp_all

theorem rejectConfig_ok {cfg : TunerCfg σ C} {t : Tuner σ C} {c : C} {b : Bool} {r : Tuner σ C × C × Bool}
    (h : t.rejectConfig cfg c b = .ok r) :
    t.trivial = false ∧ SameClock t r.1 ∧ r.1.queue.getLast? = some r.2.1 ∧ r.2.2 = true := by
  unfold Tuner.rejectConfig at h
  split at h
  · cases h
  · rename_i ht
    obtain ⟨c', hc', h⟩ := Outcome.bind_ok.1 h
    simp only [Outcome.ok.injEq] at h
    subst h
    rw [currentConfig_ok] at hc'
    refine ⟨by simpa using ht, ⟨rfl, rfl, rfl, rfl, rfl, rfl⟩, hc', ?_⟩
    simp only [Bool.not_eq_true', List.isEmpty_eq_false_iff]
    intro he
    rw [he] at hc'
    simp at hc'

theorem selectContainer_key (s : Ctl σ C) (a b : Nat) :
    (s.selectContainer a b).ctype = a ∧ (s.selectContainer a b).cinfo = b := by
  unfold Ctl.selectContainer; split_ifs with h
  · simp
  · push Not at h; exact h

theorem selectContainer_same {s : Ctl σ C} {a b : Nat} (ha : s.ctype = a) (hb : s.cinfo = b) : s.selectContainer a b = s := by
  unfold Ctl.selectContainer; simp [ha, hb]

theorem selectLoop_ok {cfg : TunerCfg σ C} {v : C → Verdict} {fuel : Nat} :
    ∀ {t : Tuner σ C} {c : C} {b : Bool} {r : Tuner σ C × Bool × List C},
      t.queue.getLast? = some c → selectLoop cfg v fuel t c b = .ok r →
      (r.1 = t ∨ t.trivial = false) ∧ SameClock t r.1 ∧ (b = true → r.2.1 = true) ∧
      ∃ c', r.1.queue.getLast? = some c' ∧ v c' = .applicable ∧ r.2.2.getLast? = some c' := by
  induction fuel with
  | zero => intro t c b r _ h; simp [selectLoop] at h
  | succ fuel ih =>
    intro t c b r hq h
    unfold selectLoop at h
    split at h
    · obtain ⟨a, ha, h⟩ := Outcome.bind_ok.1 h
      obtain ⟨k1, k2, k3, k4⟩ := rejectConfig_ok ha
      obtain ⟨i1, i2, i3, i5⟩ := ih k3 h
      refine ⟨.inr k1, ?_, fun _ => i3 k4, i5⟩
      unfold SameClock at *
      simp only [i2, k2, and_self]
    · obtain ⟨a, ha, h⟩ := Outcome.bind_ok.1 h
      obtain ⟨k1, k2, k3, k4⟩ := rejectConfig_ok ha
      obtain ⟨q, hq, h⟩ := Outcome.bind_ok.1 h
      obtain ⟨i1, i2, i3, c', i5, i6, i7⟩ := ih k3 hq
      simp only [Outcome.ok.injEq] at h
      subst h
      refine ⟨.inr k1, ?_, fun _ => i3 k4, c', i5, i6, ?_⟩
      · unfold SameClock at *
        simp only [i2, k2, and_self]
      · simp only [List.getLast?_cons, i7, Option.getD_some]
    · rename_i hv
      simp only [Outcome.ok.injEq] at h
      subst h
      exact ⟨.inl rfl, ⟨rfl, rfl, rfl, rfl, rfl, rfl⟩, id, c, hq, hv, rfl⟩

theorem selectFold_key (cfg : CtlCfg σ C) {l : List C} {c : C} (h : l.getLast? = some c) : ∀ s : Ctl σ C,
    (l.foldl (fun s c => s.selectContainer (cfg.ctype c) (cfg.cinfo c)) s).ctype = cfg.ctype c ∧
    (l.foldl (fun s c => s.selectContainer (cfg.ctype c) (cfg.cinfo c)) s).cinfo = cfg.cinfo c := by
  intro s
  obtain ⟨l', rfl⟩ := List.getLast?_eq_some_iff.1 h
  rw [List.foldl_append]
  exact selectContainer_key _ _ _

/-- `addMeasurement` adds one sample and leaves queue, clock and search space alone. -/
theorem addMeasurement_ok {cfg : TunerCfg σ C} {t t' : Tuner σ C} {x : Int} {b : Bool}
    (h : t.addMeasurement cfg x b = .ok t') :
    t.numSamples < cfg.maxSamples ∧ t'.numSamples = t.numSamples + 1 ∧ t'.queue = t.queue ∧
    t'.searchSpace = t.searchSpace ∧ t'.isTuning = t.isTuning ∧ t'.forceRetune = t.forceRetune ∧
    t'.iterationBaseline = t.iterationBaseline ∧ t'.iteration = t.iteration := by
  unfold Tuner.addMeasurement at h
  obtain ⟨c, hc, h⟩ := Outcome.bind_ok.1 h
  split at h
  · cases h
  · rename_i hlt
    refine ⟨by omega, ?_⟩
    unfold Tuner.numSamples
    cases b <;> simp only [Bool.false_eq_true, if_false, if_true] at h <;> split at h <;>
      (simp only [Outcome.ok.injEq] at h; subst h; simp; try omega)

/-- The outcome of `tuneConfiguration`. -/
theorem tuneConfiguration_ok {cfg : TunerCfg σ C} {t : Tuner σ C} {r : Tuner σ C × Bool} (hf : t.forceRetune = false)
    (h : t.tuneConfiguration cfg = .ok r) :
    r.1.forceRetune = false ∧ r.1.searchSpace = t.searchSpace ∧ r.1.iteration = t.iteration ∧ r.2 = r.1.isTuning ∧
    (r.1.isTuning = true → r.1.numSamples = 0 ∧
      (r.1.iterationBaseline = 0 ∨ (t.isTuning = true ∧ r.1.iterationBaseline = t.iterationBaseline) ∨
        t.iteration % cfg.tuningInterval ≠ 0)) := by
  unfold Tuner.tuneConfiguration at h
  split at h
  · cases h
  · simp only at h
    split at h
    · rename_i hs
      split at h
      · obtain ⟨c, hc, h⟩ := Outcome.bind_ok.1 h
        simp only [Outcome.ok.injEq] at h
        subst h
        simp
      · simp only [Outcome.ok.injEq] at h
        subst h
        simp [Tuner.numSamples]
    · rename_i hs
      split at h
      · obtain ⟨c, hc, h⟩ := Outcome.bind_ok.1 h
        simp only [Outcome.ok.injEq] at h
        subst h
        simp [hf]
      · simp only [Outcome.ok.injEq] at h
        subst h
        simp only [hf, Tuner.numSamples, List.length_nil, Nat.add_zero, true_and, forall_const]
        by_cases hi : t.isTuning = true
        · exact .inr (.inl ⟨hi, trivial⟩)
        · refine .inr (.inr fun h0 => hs (.inl ⟨h0, by simpa using hi⟩))

/-- State before a `computeInteractions`. -/
structure PreInv (cfg : CtlCfg σ C) (v : C → Verdict) (s : Ctl σ C) (t : Tuner σ C) (tr : List Event) : Prop where
  tun : s.tuners .pairwise = some t
  other : s.tuners .triwise = none
  noForce : t.forceRetune = false
  trace : BuiltBeforeUse tr
  clock : t.isTuning = true → t.trivial = false →
    (t.numSamples < (cfg.tuner .pairwise).maxSamples → t.numSamples = t.iterationBaseline % (cfg.tuner .pairwise).maxSamples) ∧
    (t.numSamples ≥ (cfg.tuner .pairwise).maxSamples → t.iterationBaseline % (cfg.tuner .pairwise).maxSamples = 0)
  keep : s.valid = true → Event.built s.gen ∈ tr ∧
    (∃ c, t.queue.getLast? = some c ∧ v c = .applicable ∧ s.ctype = cfg.ctype c ∧ s.cinfo = cfg.cinfo c) ∧
    (t.inTuningPhase (cfg.tuner .pairwise) = true → t.numSamples < (cfg.tuner .pairwise).maxSamples)

/-- State after a `computeInteractions`. -/
structure PostInv (cfg : CtlCfg σ C) (v : C → Verdict) (s : Ctl σ C) (t : Tuner σ C) (tr : List Event) : Prop where
  tun : s.tuners .pairwise = some t
  other : s.tuners .triwise = none
  noForce : t.forceRetune = false
  trace : BuiltBeforeUse tr
  calls : 0 < s.functorCalls
  valid : s.valid = true
  built : Event.built s.gen ∈ tr
  conf : ∃ c, t.queue.getLast? = some c ∧ v c = .applicable ∧ s.ctype = cfg.ctype c ∧ s.cinfo = cfg.cinfo c
  clock : t.isTuning = true → t.trivial = false →
    t.numSamples = t.iterationBaseline % (cfg.tuner .pairwise).maxSamples + 1

theorem compute_inv {cfg : CtlCfg σ C} {v : C → Verdict} {fuel : Nat} {s : Ctl σ C} {t : Tuner σ C} {tr : List Event}
    (hm : 0 < (cfg.tuner .pairwise).maxSamples) (h : PreInv cfg v s t tr) {time : Int} {r : Ctl σ C × List Event}
    (hr : s.compute cfg fuel .pairwise true v time = .ok r) :
    ∃ t', PostInv cfg v r.1 t' (tr ++ r.2) ∧ (t'.trivial = false → t.trivial = false) := by
  have hshape := compute_ok hr
  unfold Ctl.compute at hr
  rw [h.tun] at hr
  simp only at hr
  obtain ⟨a, ha, hr⟩ := Outcome.bind_ok.1 hr
  obtain ⟨t', ht', hr⟩ := Outcome.bind_ok.1 hr
  obtain ⟨q1, q2, q3, q4⟩ := selectConfiguration_pres ha
  simp only [Outcome.ok.injEq] at hr
  -- the tuner before the rejection loop
  unfold Ctl.selectConfiguration at ha
  simp only [Bool.not_true, Bool.false_eq_true, if_false] at ha
  obtain ⟨u, hu, ha⟩ := Outcome.bind_ok.1 ha
  simp only [Outcome.ok.injEq] at ha
  unfold Tuner.select at hu
  obtain ⟨n, hn, hu⟩ := Outcome.bind_ok.1 hu
  have hn' : n.1.queue.getLast? = some n.2.1 := by
    unfold Tuner.getNextConfig at hn
    split at hn
    · obtain ⟨c, hc, hn⟩ := Outcome.bind_ok.1 hn
      simp only [Outcome.ok.injEq] at hn
      subst hn
      exact currentConfig_ok.1 hc
    · split at hn
      · obtain ⟨c, hc, hn⟩ := Outcome.bind_ok.1 hn
        simp only [Outcome.ok.injEq] at hn
        subst hn
        exact currentConfig_ok.1 hc
      · obtain ⟨x, hx, hn⟩ := Outcome.bind_ok.1 hn
        obtain ⟨c, hc, hn⟩ := Outcome.bind_ok.1 hn
        simp only [Outcome.ok.injEq] at hn
        subst hn
        exact currentConfig_ok.1 hc
  obtain ⟨l1, l2, l3, c', l4, l5, l6'⟩ := selectLoop_ok hn' hu
  obtain ⟨l6, l7⟩ := selectFold_key cfg l6' s
  have ea1 : a.2.1 = u.1 := by rw [← ha]
  have ea2 : a.2.2 = u.2.1 := by rw [← ha]
  rw [← ea1] at l1 l2 l4
  rw [← ea2] at l3
  have ea3 : u.2.2.foldl (fun s c => s.selectContainer (cfg.ctype c) (cfg.cinfo c)) s = a.1 := by rw [← ha]
  rw [ea3] at l6 l7
  -- relation of the final tuner to `a.2.1`
  have hfin : t'.queue = a.2.1.queue ∧ t'.searchSpace = a.2.1.searchSpace ∧ t'.isTuning = a.2.1.isTuning ∧
      t'.forceRetune = a.2.1.forceRetune ∧ t'.iterationBaseline = a.2.1.iterationBaseline ∧
      (a.2.2 = true → t'.numSamples = a.2.1.numSamples + 1) ∧ (a.2.2 = false → t' = a.2.1) := by
    unfold Tuner.measure at ht'
    split at ht'
    · rename_i hb
      obtain ⟨_, k1, k2, k3, k4, k5, k6, _⟩ := addMeasurement_ok ht'
      exact ⟨k2, k3, k4, k5, k6, fun _ => k1, fun hx => by simp [hx] at hb⟩
    · rename_i hb
      simp only [Outcome.ok.injEq] at ht'
      subst ht'
      exact ⟨rfl, rfl, rfl, rfl, rfl, fun hx => by simp [hx] at hb, fun _ => rfl⟩
  obtain ⟨f1, f2, f3, f4, f5, f6, f7⟩ := hfin
  obtain ⟨m1, m2, m3, m4, m5, m6⟩ := l2
  have hnum : a.2.1.numSamples = n.1.numSamples := by unfold Tuner.numSamples; rw [m5, m6]
  -- facts about the result of `getNextConfig`
  have hgn : n.1.forceRetune = false ∧ n.1.searchSpace = t.searchSpace ∧
      (n.1.isTuning = true → n.1.trivial = false → n.2.2 = true ∧
        n.1.numSamples = n.1.iterationBaseline % (cfg.tuner .pairwise).maxSamples) := by
    unfold Tuner.getNextConfig at hn
    split at hn
    · rename_i hi
      obtain ⟨c, hc, hn⟩ := Outcome.bind_ok.1 hn
      simp only [Outcome.ok.injEq] at hn
      subst hn
      refine ⟨h.noForce, rfl, fun h1 h2 => ?_⟩
      simp only at h1 h2
      simp [Tuner.inTuningPhase, h1, h2] at hi
    · rename_i hi
      split at hn
      · rename_i hlt
        obtain ⟨c, hc, hn⟩ := Outcome.bind_ok.1 hn
        simp only [Outcome.ok.injEq] at hn
        subst hn
        exact ⟨h.noForce, rfl, fun h1 h2 => ⟨rfl, (h.clock h1 h2).1 hlt⟩⟩
      · rename_i hge
        obtain ⟨x, hx, hn⟩ := Outcome.bind_ok.1 hn
        obtain ⟨c, hc, hn⟩ := Outcome.bind_ok.1 hn
        simp only [Outcome.ok.injEq] at hn
        subst hn
        obtain ⟨k1, k2, k3, k4, k5⟩ := tuneConfiguration_ok h.noForce hx
        refine ⟨k1, k2, fun h1 h2 => ⟨by simp only at h1 ⊢; rw [k4, h1], ?_⟩⟩
        simp only at h1 h2 ⊢
        obtain ⟨k6, k7⟩ := k5 h1
        have htr : t.trivial = false := by unfold Tuner.trivial at h2 ⊢; rw [← k2]; exact h2
        rw [k6]
        rcases k7 with k7 | ⟨k7, k8⟩ | k7
        · simp [k7]
        · rw [k8, (h.clock k7 htr).2 (by omega)]
        · -- not at an interval boundary, so the tuner was in its phase
          have : t.isTuning = true := by
            simp only [Tuner.inTuningPhase, htr, h.noForce, Bool.not_false, Bool.and_true, Bool.or_false,
              Bool.not_eq_eq_eq_not, Bool.not_true, Bool.or_eq_false_iff, not_and, decide_eq_false_iff_not,
              Bool.not_eq_false] at hi
            exact hi k7
          -- then the baseline is unchanged unless the phase ended
          have hk := h.clock this htr
          unfold Tuner.tuneConfiguration at hx
          split at hx
          · cases hx
          · simp only [this, h.noForce] at hx
            simp only [Bool.not_true, Bool.false_eq_true, and_false, or_false, if_false] at hx
            split at hx
            · obtain ⟨c, hc, hx⟩ := Outcome.bind_ok.1 hx
              simp only [Outcome.ok.injEq] at hx
              subst hx
              simp at h1
            · simp only [Outcome.ok.injEq] at hx
              subst hx
              simp only
              rw [hk.2 (by omega)]
  obtain ⟨g1, g2, g3⟩ := hgn
  have htriv : t'.trivial = false → n.1.trivial = false := by
    intro hx
    rcases l1 with l1 | l1
    · unfold Tuner.trivial at hx ⊢; rw [f2, l1] at hx; exact hx
    · exact l1
  subst hr
  refine ⟨t', ⟨by simp, ?_, by rw [f4, m4, g1], ?_, by simp, rfl, ?_, ⟨c', by rw [f1]; exact l4, l5, l6, l7⟩, ?_⟩, ?_⟩
  · simp only [reduceCtorEq, if_false]
    rw [q4]; exact h.other
  · -- trace
    simp only
    simp only at hshape
    by_cases hv : s.valid = true
    · obtain ⟨k1, ⟨c, k2, k3, k4, k5⟩, k6⟩ := h.keep hv
      have hsame : a.1 = s := by
        have hnt : n = (t, c, n.2.2) := by
          unfold Tuner.getNextConfig at hn
          have hcc := currentConfig_ok.2 k2
          split at hn
          · rw [hcc] at hn; simp only [Outcome.bind, Outcome.ok.injEq] at hn; rw [← hn]
          · rename_i hi
            rw [if_pos (k6 (by simpa using hi)), hcc] at hn
            simp only [Outcome.bind, Outcome.ok.injEq] at hn; rw [← hn]
        rw [hnt] at hu
        simp only at hu
        cases fuel with
        | zero => simp [selectLoop] at hu
        | succ fuel =>
          unfold selectLoop at hu
          rw [k3] at hu
          simp only [Outcome.ok.injEq] at hu
          rw [← ea3, ← hu]
          exact selectContainer_same k4 k5
      rw [hsame]
      simp only [hv, Bool.not_true, Bool.false_eq_true, if_false, List.nil_append]
      exact builtBeforeUse_snoc h.trace k1
    · simp only [Bool.not_eq_true] at hv
      simp only [q1, hv, Bool.not_false, if_true]
      rw [← List.append_assoc]
      exact builtBeforeUse_snoc (builtBeforeUse_append h.trace (by simp)) (by simp)
  · simp only
    by_cases hv : s.valid = true
    · obtain ⟨k1, ⟨c, k2, k3, k4, k5⟩, k6⟩ := h.keep hv
      have hsame : a.1 = s := by
        have hnt : n = (t, c, n.2.2) := by
          unfold Tuner.getNextConfig at hn
          have hcc := currentConfig_ok.2 k2
          split at hn
          · rw [hcc] at hn; simp only [Outcome.bind, Outcome.ok.injEq] at hn; rw [← hn]
          · rename_i hi
            rw [if_pos (k6 (by simpa using hi)), hcc] at hn
            simp only [Outcome.bind, Outcome.ok.injEq] at hn; rw [← hn]
        rw [hnt] at hu
        simp only at hu
        cases fuel with
        | zero => simp [selectLoop] at hu
        | succ fuel =>
          unfold selectLoop at hu
          rw [k3] at hu
          simp only [Outcome.ok.injEq] at hu
          rw [← ea3, ← hu]
          exact selectContainer_same k4 k5
      rw [hsame]
      simp [k1]
    · simp only [Bool.not_eq_true] at hv
      simp [q1, hv]
  · intro h1 h2
    have n1 : n.1.isTuning = true := by rw [← m3, ← f3]; exact h1
    obtain ⟨k1, k2⟩ := g3 n1 (htriv h2)
    rw [f6 (l3 k1), hnum, f5, m2, k2]
  · intro hx
    have := htriv hx
    unfold Tuner.trivial at this ⊢
    rw [← g2]; exact this

/-- `updateContainer` between two `computeInteractions`, if no new phase starts with valid lists. -/
theorem update_inv {cfg : CtlCfg σ C} {v : C → Verdict} {s : Ctl σ C} {t : Tuner σ C} {tr : List Event}
    (hm : 0 < (cfg.tuner .pairwise).maxSamples) (h : PostInv cfg v s t tr)
    (hstart : (s.update cfg).valid = true → t.isTuning = false →
      (t.iteration + 1) % (cfg.tuner .pairwise).tuningInterval = 0 → t.trivial = true) :
    ∃ t', PreInv cfg v (s.update cfg) t' (tr ++ [Event.update]) := by
  set m := (cfg.tuner .pairwise).maxSamples with hmdef
  have hcheck : ∀ u, u = s.checkLists cfg → u.tuners = s.tuners ∧ u.functorCalls = s.functorCalls ∧ u.gen = s.gen ∧
      u.ctype = s.ctype ∧ u.cinfo = s.cinfo ∧ (u.valid = true → t.willRebuild (cfg.tuner .pairwise) = false) := by
    rintro u rfl
    unfold Ctl.checkLists
    split
    · simp
    · rename_i hx
      push Not at hx
      refine ⟨rfl, rfl, rfl, rfl, rfl, fun _ => ?_⟩
      have := hx.2.1
      simpa [Ctl.needRebuild, h.tun] using this
  obtain ⟨c1, c2, c3, c4, c5, c6⟩ := hcheck _ rfl
  set t' := t.bump (cfg.tuner .pairwise) false with ht'
  have hupd : (s.update cfg).tuners .pairwise = some t' ∧ (s.update cfg).tuners .triwise = none ∧
      (s.update cfg).gen = s.gen ∧ (s.update cfg).ctype = s.ctype ∧ (s.update cfg).cinfo = s.cinfo ∧
      ((s.update cfg).valid = true → t.willRebuild (cfg.tuner .pairwise) = false) := by
    have hb : (s.checkLists cfg).bumpTuner cfg .pairwise .triwise =
        { s.checkLists cfg with tuners := fun ty' => if ty' = .pairwise then some t' else (s.checkLists cfg).tuners ty' } := by
      unfold Ctl.bumpTuner
      rw [c1, h.tun]
      simp [Ctl.otherTuning, c1, h.other, ht']
    unfold Ctl.update
    simp only [c2, if_pos h.calls, hb]
    unfold Ctl.bumpTuner
    simp only [reduceCtorEq, if_false, c1, h.other, if_true]
    exact ⟨trivial, trivial, c3, c4, c5, c6⟩
  obtain ⟨u1, u2, u3, u4, u5, u6⟩ := hupd
  have b1 : t'.queue = t.queue ∧ t'.searchSpace = t.searchSpace ∧ t'.isTuning = t.isTuning ∧
      t'.forceRetune = t.forceRetune ∧ t'.numSamples = t.numSamples ∧ t'.iteration = t.iteration + 1 := by
    simp [ht', Tuner.bump, Tuner.numSamples]
  obtain ⟨b1, b2, b3, b4, b5, b6⟩ := b1
  have btriv : t'.trivial = t.trivial := by unfold Tuner.trivial; rw [b2]
  have bbase : t.isTuning = true → t.trivial = false → t'.iterationBaseline = t.iterationBaseline + 1 := by
    intro h1 h2
    simp [ht', Tuner.bump, Tuner.inTuningPhase, h1, h2]
  have hmod : ∀ b : Nat, ((b + 1) % m = b % m + 1 ∧ b % m + 1 < m) ∨ ((b + 1) % m = 0 ∧ b % m + 1 = m) := by
    intro b
    have h1 := Nat.mod_lt b hm
    by_cases hx : b % m + 1 = m
    · refine .inr ⟨?_, hx⟩
      rw [Nat.add_mod]
      by_cases h1' : m = 1
      · rw [h1']; simp [Nat.mod_one]
      · rw [Nat.mod_eq_of_lt (show 1 < m by omega), hx, Nat.mod_self]
    · have hx : b % m + 1 < m := by omega
      refine .inl ⟨?_, hx⟩
      rw [Nat.add_mod, Nat.mod_eq_of_lt (show 1 < m by omega), Nat.mod_eq_of_lt hx]
  refine ⟨t', u1, u2, by rw [b4]; exact h.noForce, builtBeforeUse_append h.trace (by simp), ?_, ?_⟩
  · intro h1 h2
    rw [b3] at h1
    rw [btriv] at h2
    rw [bbase h1 h2, b5, h.clock h1 h2]
    rcases hmod t.iterationBaseline with hx | hx
    · exact ⟨fun _ => hx.1.symm, fun hge => by simp only [← hmdef] at *; omega⟩
    · exact ⟨fun hlt => by simp only [← hmdef] at *; omega, fun _ => hx.1⟩
  · intro hv
    rw [u3]
    refine ⟨by simp [h.built], ?_, ?_⟩
    · rw [b1, u4, u5]; exact h.conf
    · intro hin
      rw [b5]
      have hw := u6 hv
      by_cases hi : t.isTuning = true
      · have ht : t.trivial = false := by
          rw [← btriv]
          unfold Tuner.inTuningPhase at hin
          simp only [Bool.and_eq_true, Bool.not_eq_true'] at hin
          exact hin.2
        have : (t.iterationBaseline + 1) % m ≠ 0 := by
          simpa [Tuner.willRebuild, Tuner.inTuningPhase, hi, ht, h.noForce, ← hmdef] using hw
        have hc := h.clock hi ht
        rw [hc]
        rcases hmod t.iterationBaseline with hx | hx
        · exact hx.2
        · exact absurd hx.1 this
      · simp only [Bool.not_eq_true] at hi
        exfalso
        unfold Tuner.inTuningPhase at hin
        rw [b3, hi, b4, h.noForce, b6, btriv] at hin
        simp only [Bool.or_false, Bool.and_eq_true, decide_eq_true_eq, Bool.not_eq_true'] at hin
        have := hstart hv hi hin.1
        rw [this] at hin
        simp at hin

end Verif
