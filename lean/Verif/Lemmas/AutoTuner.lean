import Verif.Lemmas.SwitchLists
import Mathlib.Data.List.Nodup
/-! Evidence and full-search tuning phases. -/
namespace Verif

variable {σ C : Type} [DecidableEq C]

/-! ### Evidence map -/

theorem getEvidence_add (m : EvidenceMap C) (c c' : C) (e : Evidence) :
    getEvidence (addEvidence m c e) c' = if c = c' then getEvidence m c' ++ [e] else getEvidence m c' := by
  induction m with
  | nil =>
    simp only [addEvidence, getEvidence]
    split <;> simp
  | cons a m ih =>
    obtain ⟨k, es⟩ := a
    unfold addEvidence
    split_ifs with h1 h2
    · subst h1; subst h2; simp [getEvidence]
    · subst h1; simp [getEvidence, h2]
    · rename_i h3
      subst h3
      simp only [getEvidence, h1, if_false, ih, if_true]
    · rename_i h3
      simp only [getEvidence, ih, h3, if_false]

theorem getEvidence_setLast (m : EvidenceMap C) (c c' : C) (v : Int) (e : Evidence) (es : List Evidence)
    (h : getEvidence m c = es ++ [e]) :
    getEvidence (setLastEvidence m c v) c' =
      if c = c' then es ++ [⟨e.iteration, e.tuningPhase, v⟩] else getEvidence m c' := by
  induction m with
  | nil => simp [getEvidence] at h
  | cons a m ih =>
    obtain ⟨k, fs⟩ := a
    unfold setLastEvidence
    split_ifs with h1 h2
    · subst h1; subst h2
      simp only [getEvidence, if_true] at h
      subst h
      simp [getEvidence]
    · subst h1
      simp [getEvidence, h2]
    · rename_i h3
      subst h3
      have h' : getEvidence m c = es ++ [e] := by simpa [getEvidence, h1] using h
      simp only [getEvidence, h1, if_false, ih h', if_true]
    · rename_i h3
      have h' : getEvidence m c = es ++ [e] := by simpa [getEvidence, h1] using h
      simp only [getEvidence, ih h', h3, if_false]

theorem addEvidence_keys (m : EvidenceMap C) (c : C) (e : Evidence) :
    (addEvidence m c e).map Prod.fst = if c ∈ m.map Prod.fst then m.map Prod.fst else m.map Prod.fst ++ [c] := by
  induction m with
  | nil => simp [addEvidence]
  | cons a m ih =>
    obtain ⟨k, es⟩ := a
    unfold addEvidence
    split_ifs with h1 h2
    · simp
    · simp [h1] at h2
    · rename_i h2
      simp only [List.map_cons, List.mem_cons] at h2
      rcases h2 with h2 | h2
      · exact absurd h2.symm h1
      · simp only [List.map_cons, ih, if_pos h2]
    · rename_i h2
      simp only [List.map_cons, List.mem_cons, not_or] at h2
      simp only [List.map_cons, ih, if_neg h2.2, List.cons_append]

theorem setLast_keys (m : EvidenceMap C) (c : C) (v : Int) : (setLastEvidence m c v).map Prod.fst = m.map Prod.fst := by
  induction m with
  | nil => rfl
  | cons a m ih =>
    obtain ⟨k, es⟩ := a
    unfold setLastEvidence
    split_ifs <;> simp [ih]

theorem getEvidence_of_mem {m : EvidenceMap C} (hk : (m.map Prod.fst).Nodup) {k : C} {es : List Evidence} (h : (k, es) ∈ m) :
    getEvidence m k = es := by
  induction m with
  | nil => simp at h
  | cons a m ih =>
    obtain ⟨k', es'⟩ := a
    simp only [List.map_cons, List.nodup_cons] at hk
    rcases List.mem_cons.1 h with h | h
    · cases h; simp [getEvidence]
    · have : k' ≠ k := by
        rintro rfl
        exact hk.1 (List.mem_map.2 ⟨_, h, rfl⟩)
      simp only [getEvidence, this, if_false]
      exact ih hk.2 h

theorem mem_of_getEvidence {m : EvidenceMap C} {k : C} {e : Evidence} (h : e ∈ getEvidence m k) :
    ∃ es, (k, es) ∈ m ∧ e ∈ es := by
  induction m with
  | nil => simp [getEvidence] at h
  | cons a m ih =>
    obtain ⟨k', es'⟩ := a
    unfold getEvidence at h
    split_ifs at h with hk
    · subst hk; exact ⟨es', by simp, h⟩
    · obtain ⟨es, h1, h2⟩ := ih h
      exact ⟨es, by simp [h1], h2⟩

/-! ### Optimum -/

theorem betterEvidence_some {p : Nat} {b : Int} {es : List Evidence} {e : Evidence} (h : betterEvidence p b es = some e) :
    e ∈ es ∧ e.tuningPhase = p ∧ e.value < b := by
  unfold betterEvidence at h
  have h1 := List.mem_of_find?_eq_some h
  have h2 := List.find?_some h
  simp only [Bool.and_eq_true, decide_eq_true_eq] at h2
  exact ⟨by simpa using h1, h2.1, h2.2⟩

theorem betterEvidence_none {p : Nat} {b : Int} {es : List Evidence} (h : betterEvidence p b es = none) :
    ∀ e ∈ es, e.tuningPhase = p → b ≤ e.value := by
  intro e he hp
  unfold betterEvidence at h
  rw [List.find?_eq_none] at h
  have := h e (by simpa using he)
  simp only [Bool.and_eq_true, decide_eq_true_eq, not_and, gt_iff_lt, not_lt] at this
  exact this hp

omit [DecidableEq C] in
/-- The loop computes a minimum, if each configuration has at most one evidence of the phase. -/
theorem optimalLoop_spec {p : Nat} {m : EvidenceMap C}
    (huniq : ∀ k es, (k, es) ∈ m → ∀ e ∈ es, ∀ e' ∈ es, e.tuningPhase = p → e'.tuningPhase = p → e.value = e'.value) :
    ∀ (c : Option C) (best : Int), (optimalLoop p m c best).2 ≤ best ∧
      (∀ k es, (k, es) ∈ m → ∀ e ∈ es, e.tuningPhase = p → (optimalLoop p m c best).2 ≤ e.value) ∧
      ((optimalLoop p m c best) = (c, best) ∨
        ∃ k es e, (k, es) ∈ m ∧ e ∈ es ∧ e.tuningPhase = p ∧ e.value < best ∧
          optimalLoop p m c best = (some k, e.value)) := by
  induction m with
  | nil => intro c best; exact ⟨le_refl _, by simp, .inl rfl⟩
  | cons a m ih =>
    obtain ⟨k, es⟩ := a
    intro c best
    have hu : ∀ k es, (k, es) ∈ m → ∀ e ∈ es, ∀ e' ∈ es, e.tuningPhase = p → e'.tuningPhase = p → e.value = e'.value :=
      fun k es hm => huniq k es (by simp [hm])
    unfold optimalLoop
    split
    · rename_i e he
      obtain ⟨b1, b2, b3⟩ := betterEvidence_some he
      obtain ⟨i1, i2, i3⟩ := ih hu (some k) e.value
      refine ⟨by omega, ?_, ?_⟩
      · intro k' es' hm e' he' hp
        rcases List.mem_cons.1 hm with hm | hm
        · cases hm
          rw [← huniq k es (by simp) e b1 e' he' b2 hp]
          exact i1
        · exact i2 k' es' hm e' he' hp
      · right
        rcases i3 with i3 | ⟨k', es', e', j1, j2, j3, j4, j5⟩
        · exact ⟨k, es, e, by simp, b1, b2, b3, i3⟩
        · exact ⟨k', es', e', by simp [j1], j2, j3, by omega, j5⟩
    · rename_i he
      have hn := betterEvidence_none he
      obtain ⟨i1, i2, i3⟩ := ih hu c best
      refine ⟨i1, ?_, ?_⟩
      · intro k' es' hm e' he' hp
        rcases List.mem_cons.1 hm with hm | hm
        · cases hm
          exact le_trans i1 (hn e' he' hp)
        · exact i2 k' es' hm e' he' hp
      · rcases i3 with i3 | ⟨k', es', e', j1, j2, j3, j4, j5⟩
        · exact .inl i3
        · exact .inr ⟨k', es', e', by simp [j1], j2, j3, j4, j5⟩

omit [DecidableEq C] in
theorem getOptimal_spec {p : Nat} {m : EvidenceMap C}
    (huniq : ∀ k es, (k, es) ∈ m → ∀ e ∈ es, ∀ e' ∈ es, e.tuningPhase = p → e'.tuningPhase = p → e.value = e'.value)
    (hval : ∀ k es, (k, es) ∈ m → ∀ e ∈ es, e.tuningPhase = p → e.value < longMax)
    (hex : ∃ k es e, (k, es) ∈ m ∧ e ∈ es ∧ e.tuningPhase = p) :
    ∃ k es e, getOptimalConfiguration m p = .ok k ∧ (k, es) ∈ m ∧ e ∈ es ∧ e.tuningPhase = p ∧
      ∀ k' es', (k', es') ∈ m → ∀ e' ∈ es', e'.tuningPhase = p → e.value ≤ e'.value := by
  obtain ⟨k0, es0, e0, x1, x2, x3⟩ := hex
  obtain ⟨i1, i2, i3⟩ := optimalLoop_spec huniq none longMax
  have hne : m.isEmpty = false := by
    cases m with
    | nil => simp at x1
    | cons => rfl
  rcases i3 with i3 | ⟨k, es, e, j1, j2, j3, j4, j5⟩
  · exfalso
    have := i2 k0 es0 x1 e0 x2 x3
    rw [i3] at this
    have := hval k0 es0 x1 e0 x2 x3
    simp only at *
    omega
  · refine ⟨k, es, e, ?_, j1, j2, j3, ?_⟩
    · simp [getOptimalConfiguration, hne, j5]
    · intro k' es' hm e' he' hp
      have := i2 k' es' hm e' he' hp
      rw [j5] at this
      exact this

/-! ### Iterations of the tuner -/

/-- One `computeInteractions` with a relevant functor, as far as the tuner is concerned. -/
def tunerIteration (cfg : TunerCfg σ C) (fuel : Nat) (v : C → Verdict) (t : Tuner σ C) (x : Int × Bool) : Outcome (Tuner σ C) :=
  (t.select cfg fuel v).bind fun r => r.1.measure cfg true r.2.1 x.1 x.2

/-- Iterations with measured times and rebuild flags; returns the tuner and the configurations used. -/
def tunerRun (cfg : TunerCfg σ C) (fuel : Nat) (v : C → Verdict) : Tuner σ C → List (Int × Bool) → Outcome (Tuner σ C × List C)
  | t, [] => .ok (t, [])
  | t, x :: xs =>
    (tunerIteration cfg fuel v t x).bind fun t' => t'.currentConfig.bind fun c =>
      (tunerRun cfg fuel v (t'.bump cfg false) xs).bind fun r => .ok (r.1, c :: r.2)

theorem tunerRun_append {cfg : TunerCfg σ C} {fuel : Nat} {v : C → Verdict} {xs ys : List (Int × Bool)} :
    ∀ {t t1 t2 : Tuner σ C} {l1 l2 : List C}, tunerRun cfg fuel v t xs = .ok (t1, l1) →
      tunerRun cfg fuel v t1 ys = .ok (t2, l2) → tunerRun cfg fuel v t (xs ++ ys) = .ok (t2, l1 ++ l2) := by
  induction xs with
  | nil =>
    intro t t1 t2 l1 l2 h1 h2
    simp only [tunerRun, Outcome.ok.injEq, Prod.mk.injEq] at h1
    obtain ⟨rfl, rfl⟩ := h1
    simpa using h2
  | cons x xs ih =>
    intro t t1 t2 l1 l2 h1 h2
    simp only [tunerRun, List.cons_append] at h1 ⊢
    obtain ⟨t', ht', h1⟩ := Outcome.bind_ok.1 h1
    obtain ⟨c, hc, h1⟩ := Outcome.bind_ok.1 h1
    obtain ⟨r, hr, h1⟩ := Outcome.bind_ok.1 h1
    simp only [Outcome.ok.injEq, Prod.mk.injEq] at h1
    obtain ⟨rfl, rfl⟩ := h1
    rw [ht']
    simp only [Outcome.bind, hc]
    rw [ih hr h2]
    simp

/-- Estimate for the samples of one configuration. -/
def chunkEstimate (cfg : TunerCfg σ C) (A : List (Int × Bool)) : Int :=
  estimateRuntime cfg.rebuildFrequency cfg.selector ((A.filter (·.2)).map Prod.fst) ((A.filter (!·.2)).map Prod.fst)

/-- The evidences of phase `p` are exactly the entries of `D`. -/
structure EvidenceIs (m : EvidenceMap C) (p : Nat) (D : List (C × Int)) : Prop where
  keys : (m.map Prod.fst).Nodup
  vals : ∀ c, ((getEvidence m c).filter (fun e => e.tuningPhase = p)).map Evidence.value =
    (D.filter (fun d => d.1 = c)).map Prod.snd
  le : ∀ c, ∀ e ∈ getEvidence m c, e.tuningPhase ≤ p

/-- Nothing is known about the next phase. -/
theorem EvidenceIs.next {m : EvidenceMap C} {p : Nat} {D : List (C × Int)} (h : EvidenceIs m p D) : EvidenceIs m (p + 1) [] := by
  refine ⟨h.keys, ?_, fun c e he => by have := h.le c e he; omega⟩
  intro c
  rw [List.filter_eq_nil_iff.2]
  · simp
  · intro e he
    have := h.le c e he
    simp only [decide_eq_true_eq]
    omega

/-- Within a phase, `A` (non-empty) are the samples of the current configuration `c`, `L` the configurations still to test,
`D` the finished ones; `j` iterations of the phase `p` have passed. -/
structure Sampling (cfg : TunerCfg σ C) (p j : Nat) (t : Tuner σ C) (c : C) (L : List C) (A : List (Int × Bool))
    (D : List (C × Int)) : Prop where
  queue : t.queue = (c :: L).reverse
  tuning : t.isTuning = true
  noForce : t.forceRetune = false
  reb : t.samplesReb = (A.filter (·.2)).map Prod.fst
  notReb : t.samplesNot = (A.filter (!·.2)).map Prod.fst
  phase : t.tuningPhase = p
  iter : t.iteration % cfg.tuningInterval = j
  ev : EvidenceIs t.evidence p D

omit [DecidableEq C] in
theorem numSamples_of {t : Tuner σ C} {A : List (Int × Bool)} (h1 : t.samplesReb = (A.filter (·.2)).map Prod.fst)
    (h2 : t.samplesNot = (A.filter (!·.2)).map Prod.fst) : t.numSamples = A.length := by
  unfold Tuner.numSamples
  rw [h1, h2, List.length_map, List.length_map]
  clear h1 h2
  induction A with
  | nil => rfl
  | cons a A ih =>
    obtain ⟨x, b⟩ := a
    cases b <;> simp only [List.filter_cons, Bool.not_true, Bool.not_false, if_true, List.length_cons] <;> simp <;> omega

/-- Taking one more sample and bumping the counters. -/
theorem sample_one {cfg : TunerCfg σ C} {p j : Nat} {t : Tuner σ C} {c : C} {L : List C} {A : List (Int × Bool)}
    {D : List (C × Int)} (h : Sampling cfg p j t c L A D) (hlt : A.length < cfg.maxSamples)
    (hj : j + 1 < cfg.tuningInterval) (x : Int × Bool) :
    ∃ t', t.measure cfg true true x.1 x.2 = .ok t' ∧ t'.queue = t.queue ∧ t'.searchSpace = t.searchSpace ∧
      ∃ D', Sampling cfg p (j + 1) (t'.bump cfg false) c L (A ++ [x]) D' ∧
        (A.length + 1 < cfg.maxSamples → D' = D) ∧
        (A.length + 1 = cfg.maxSamples → ∃ w, D' = D ++ [(c, w)] ∧ (cfg.smooth = none → w = chunkEstimate cfg (A ++ [x]))) := by
  obtain ⟨xt, xb⟩ := x
  have hq : t.currentConfig = .ok c := currentConfig_ok.2 (by rw [h.queue]; simp)
  have hn := numSamples_of h.reb h.notReb
  have hbump : ∀ u : Tuner σ C, u.iteration = t.iteration → u.tuningPhase = t.tuningPhase →
      (u.bump cfg false).tuningPhase = p ∧ (u.bump cfg false).iteration % cfg.tuningInterval = j + 1 := by
    intro u hu hup
    have : (t.iteration + 1) % cfg.tuningInterval = j + 1 := by
      rw [Nat.add_mod, h.iter, Nat.mod_eq_of_lt (show 1 < cfg.tuningInterval by omega), Nat.mod_eq_of_lt hj]
    simp [Tuner.bump, hu, hup, h.phase, this]
  -- the tuner with the sample added
  let u : Tuner σ C := if xb then { t with samplesReb := t.samplesReb ++ [xt] } else { t with samplesNot := t.samplesNot ++ [xt] }
  have hu : u.queue = t.queue ∧ u.isTuning = true ∧ u.forceRetune = false ∧ u.tuningPhase = t.tuningPhase ∧
      u.iteration = t.iteration ∧ u.evidence = t.evidence ∧ u.searchSpace = t.searchSpace ∧
      u.samplesReb = (((A ++ [(xt, xb)]).filter (·.2)).map Prod.fst) ∧
      u.samplesNot = (((A ++ [(xt, xb)]).filter (!·.2)).map Prod.fst) := by
    cases xb <;> simp [u, h.tuning, h.noForce, h.reb, h.notReb]
  obtain ⟨u1, u2, u3, u4, u5, u6, u7, u8, u9⟩ := hu
  have un := numSamples_of u8 u9
  simp only [List.length_append, List.length_singleton] at un
  have hmeas : t.measure cfg true true xt xb = if u.numSamples = cfg.maxSamples then
        let reduced := estimateRuntime cfg.rebuildFrequency cfg.selector u.samplesReb u.samplesNot
        let ev := addEvidence u.evidence c ⟨u.iteration, u.tuningPhase, reduced⟩
        let smoothed := match cfg.smooth with
          | some f => min reduced (f (getEvidence ev c))
          | none => reduced
        let ev := setLastEvidence ev c smoothed
        let s := cfg.strategies.foldl (fun s st => st.addEvidence s c ⟨u.iteration, u.tuningPhase, smoothed⟩) u.strat
        .ok { u with evidence := ev, strat := s }
      else .ok u := by
    unfold Tuner.measure
    rw [if_pos ⟨rfl, rfl⟩]
    unfold Tuner.addMeasurement
    rw [hq]
    simp only [Outcome.bind]
    rw [if_neg (by omega)]
    rfl
  by_cases hfull : A.length + 1 = cfg.maxSamples
  · rw [if_pos (by omega)] at hmeas
    simp only at hmeas
    refine ⟨_, hmeas, u1, u7, ?_⟩
    set reduced := estimateRuntime cfg.rebuildFrequency cfg.selector u.samplesReb u.samplesNot with hred
    set e : Evidence := ⟨u.iteration, u.tuningPhase, reduced⟩ with he
    set w : Int := (match cfg.smooth with
          | some f => min reduced (f (getEvidence (addEvidence u.evidence c e) c))
          | none => reduced) with hw
    obtain ⟨b1, b2⟩ := hbump { u with evidence := setLastEvidence (addEvidence u.evidence c e) c w, strat := (cfg.strategies.foldl (fun s st => st.addEvidence s c ⟨u.iteration, u.tuningPhase, w⟩) u.strat) } u5 u4
    refine ⟨D ++ [(c, w)], ⟨?_, ?_, ?_, ?_, ?_, b1, b2, ?_⟩, fun hx => by omega, fun _ => ⟨w, rfl, ?_⟩⟩
    · simp only [Tuner.bump]; rw [u1, h.queue]
    · simpa [Tuner.bump] using u2
    · simpa [Tuner.bump] using u3
    · simpa [Tuner.bump] using u8
    · simpa [Tuner.bump] using u9
    · refine ⟨?_, ?_, ?_⟩
      · simp only [Tuner.bump]
        rw [setLast_keys, addEvidence_keys, u6]
        split_ifs with hx
        · exact h.ev.keys
        · rw [List.nodup_append]
          refine ⟨h.ev.keys, by simp, ?_⟩
          intro a ha b hb
          simp only [List.mem_singleton] at hb
          subst hb
          rintro rfl
          exact hx ha
      · intro c'
        simp only [Tuner.bump]
        have h1 : getEvidence (addEvidence u.evidence c e) c = getEvidence u.evidence c ++ [e] := by
          rw [getEvidence_add, if_pos rfl]
        rw [getEvidence_setLast _ _ _ _ _ _ h1]
        by_cases hc : c = c'
        · subst hc
          have hv := h.ev.vals c
          rw [if_pos rfl, List.filter_append, List.map_append, u6, hv, List.filter_append, List.map_append]
          have hp : e.tuningPhase = p := by rw [he]; simp only; rw [u4, h.phase]
          simp [hp]
        · rw [if_neg hc, getEvidence_add, if_neg hc, u6, h.ev.vals c', List.filter_append]
          simp [hc]
      · intro c' e' he'
        simp only [Tuner.bump] at he'
        have h1 : getEvidence (addEvidence u.evidence c e) c = getEvidence u.evidence c ++ [e] := by
          rw [getEvidence_add, if_pos rfl]
        rw [getEvidence_setLast _ _ _ _ _ _ h1] at he'
        by_cases hc : c = c'
        · subst hc
          rw [if_pos rfl, u6, List.mem_append, List.mem_singleton] at he'
          rcases he' with he' | rfl
          · exact h.ev.le _ _ he'
          · rw [he]; simp only; rw [u4, h.phase]
        · rw [if_neg hc, getEvidence_add, if_neg hc, u6] at he'
          exact h.ev.le _ _ he'
    · intro hs
      rw [hw, hs]
      simp only
      rw [hred, u8, u9]
      rfl
  · rw [if_neg (by omega)] at hmeas
    obtain ⟨b1, b2⟩ := hbump u u5 u4
    refine ⟨u, hmeas, u1, u7, D, ⟨?_, ?_, ?_, ?_, ?_, b1, b2, ?_⟩, fun _ => rfl, fun hx => absurd hx hfull⟩
    · simp only [Tuner.bump]; rw [u1, h.queue]
    · simpa [Tuner.bump] using u2
    · simpa [Tuner.bump] using u3
    · simpa [Tuner.bump] using u8
    · simpa [Tuner.bump] using u9
    · simp only [Tuner.bump]; rw [u6]; exact h.ev

/-- At least two configurations are not excluded for ever. -/
def TwoCompatible (v : C → Verdict) (space : List C) : Prop :=
  ∃ a ∈ space, ∃ b ∈ space, a ≠ b ∧ v a ≠ .incompatible ∧ v b ≠ .incompatible

omit [DecidableEq C] in
theorem TwoCompatible.length {v : C → Verdict} {space : List C} (h : TwoCompatible v space) : space.length ≠ 1 := by
  obtain ⟨a, ha, b, hb, hab, -⟩ := h
  intro hl
  obtain ⟨x, rfl⟩ := List.length_eq_one_iff.1 hl
  simp only [List.mem_singleton] at ha hb
  exact hab (ha.trans hb.symm)

theorem TwoCompatible.filter {v : C → Verdict} {space : List C} (h : TwoCompatible v space) {r : C} (hr : v r = .incompatible) :
    TwoCompatible v (space.filter (fun c => c ≠ r)) := by
  obtain ⟨a, ha, b, hb, hab, h1, h2⟩ := h
  refine ⟨a, ?_, b, ?_, hab, h1, h2⟩
  · rw [List.mem_filter]; refine ⟨ha, ?_⟩; simp only [decide_eq_true_eq]; rintro rfl; exact h1 hr
  · rw [List.mem_filter]; refine ⟨hb, ?_⟩; simp only [decide_eq_true_eq]; rintro rfl; exact h2 hr

/-- `S'` is `S` without some configurations that are excluded for ever. -/
def Keeps (v : C → Verdict) (S S' : List C) : Prop :=
  ∃ keep : C → Bool, S' = S.filter keep ∧ ∀ c, v c ≠ .incompatible → keep c = true

omit [DecidableEq C] in
theorem Keeps.refl (v : C → Verdict) (S : List C) : Keeps v S S := ⟨fun _ => true, by simp, by simp⟩

omit [DecidableEq C] in
theorem Keeps.trans {v : C → Verdict} {S S' S'' : List C} (h : Keeps v S S') (h' : Keeps v S' S'') : Keeps v S S'' := by
  obtain ⟨k, rfl, hk⟩ := h
  obtain ⟨k', rfl, hk'⟩ := h'
  exact ⟨fun c => k' c && k c, by rw [List.filter_filter], fun c hc => by simp [hk c hc, hk' c hc]⟩

omit [DecidableEq C] in
theorem Keeps.apps {v : C → Verdict} {S S' : List C} (h : Keeps v S S') :
    S'.filter (fun c => v c = .applicable) = S.filter (fun c => v c = .applicable) := by
  obtain ⟨k, rfl, hk⟩ := h
  rw [List.filter_filter]
  apply List.filter_congr
  intro c _
  by_cases hc : v c = .applicable
  · simp [hc, hk c (by simp [hc])]
  · simp [hc]

omit [DecidableEq C] in
theorem Keeps.last {v : C → Verdict} {S S' : List C} (h : Keeps v S S') (hS : ∀ x, S.getLast? = some x → v x = .applicable) :
    ∀ x, S'.getLast? = some x → v x = .applicable := by
  obtain ⟨k, rfl, hk⟩ := h
  intro x hx
  rcases List.eq_nil_or_concat' S with rfl | ⟨S0, y, rfl⟩
  · simp at hx
  · have hy := hS y (by simp)
    rw [List.filter_append, List.filter_cons_of_pos (hk y (by simp [hy]))] at hx
    simp at hx
    rw [← hx]; exact hy

/-- Non-applicable configurations at the front are skipped. -/
theorem reject_loop {cfg : TunerCfg σ C} (hst : cfg.strategies = []) {v : C → Verdict} {c' : C} {L' : List C}
    (hv : v c' = .applicable) : ∀ (R : List C) (t : Tuner σ C) (c0 : C) (fuel : Nat),
      t.queue = (R ++ c' :: L').reverse → (R ++ c' :: L').Nodup → TwoCompatible v t.searchSpace →
      (∀ r ∈ R, v r ≠ .applicable) → R.length < fuel → t.currentConfig = .ok c0 →
      ∃ cs sp, selectLoop cfg v fuel t c0 true = .ok ({ t with queue := (c' :: L').reverse, searchSpace := sp }, true, cs) ∧
        TwoCompatible v sp ∧ sp = t.searchSpace.filter (fun c => ¬ (c ∈ R ∧ v c = .incompatible)) := by
  intro R
  induction R with
  | nil =>
    intro t c0 fuel hq hnd hsp hR hf hc
    obtain ⟨f, rfl⟩ : ∃ f, fuel = f + 1 := ⟨fuel - 1, by simp at hf; omega⟩
    have hc0 : c0 = c' := by
      have := currentConfig_ok.1 hc
      rw [hq, List.getLast?_reverse] at this
      simpa using this.symm
    subst hc0
    refine ⟨[c0], t.searchSpace, ?_, hsp, ?_⟩
    · unfold selectLoop
      simp only [hv]
      have : t.queue = (c0 :: L').reverse := by simpa using hq
      rw [← this]
    · simp
  | cons r R ih =>
    intro t c0 fuel hq hnd hsp hR hf hc
    obtain ⟨f, rfl⟩ : ∃ f, fuel = f + 1 := ⟨fuel - 1, by simp at hf; omega⟩
    have hc0 : c0 = r := by
      have := currentConfig_ok.1 hc
      rw [hq, List.getLast?_reverse] at this
      simpa using this.symm
    subst hc0
    simp only [List.cons_append, List.nodup_cons] at hnd
    have hq' : t.queue.filter (fun c => c ≠ c0) = (R ++ c' :: L').reverse := by
      rw [hq, List.cons_append, List.reverse_cons, List.filter_append]
      simp only [ne_eq, not_true, decide_false, List.filter_cons, List.filter_nil]
      rw [List.filter_eq_self.2]
      · simp
      · intro a ha
        rw [List.mem_reverse] at ha
        simp only [decide_eq_true_eq]
        rintro rfl
        exact hnd.1 ha
    have htriv : t.trivial = false := by
      unfold Tuner.trivial
      simpa using hsp.length
    have hrej : ∀ b, (b = true → v c0 = .incompatible) → ∃ sp c1,
        t.rejectConfig cfg c0 b = .ok ({ t with queue := (R ++ c' :: L').reverse, searchSpace := sp }, c1, true) ∧
        TwoCompatible v sp ∧ sp = (if b then t.searchSpace.filter (fun c => c ≠ c0) else t.searchSpace) ∧
        (({ t with queue := (R ++ c' :: L').reverse, searchSpace := sp } : Tuner σ C).currentConfig = .ok c1) := by
      intro b hb
      obtain ⟨c1, hc1⟩ : ∃ c1, (R ++ c' :: L').reverse.getLast? = some c1 := by
        cases R with
        | nil => exact ⟨c', by simp⟩
        | cons a R => exact ⟨a, by rw [List.getLast?_reverse]; simp⟩
      have hne : (R ++ c' :: L').reverse.isEmpty = false := by
        simp
      refine ⟨if b then t.searchSpace.filter (fun c => c ≠ c0) else t.searchSpace, c1, ?_, ?_, rfl, ?_⟩
      · unfold Tuner.rejectConfig
        rw [htriv]
        simp only [hst, List.foldl_nil, runOptimizeRaw, hq', Tuner.currentConfig, hc1, Outcome.bind, hne]
        simp
      · cases b
        · exact hsp
        · exact hsp.filter (hb rfl)
      · exact currentConfig_ok.2 hc1
    have hR' : ∀ r ∈ R, v r ≠ .applicable := fun r hr => hR r (by simp [hr])
    have hf' : R.length < f := by simp at hf; omega
    unfold selectLoop
    rcases hvc : v c0 with _ | _ | _
    · obtain ⟨sp, c1, h1, h2, h3, h4⟩ := hrej true (fun _ => hvc)
      obtain ⟨cs, sp', i1, i2, i3⟩ := ih { t with queue := (R ++ c' :: L').reverse, searchSpace := sp } c1 f rfl hnd.2 h2 hR' hf' h4
      refine ⟨cs, sp', ?_, i2, ?_⟩
      · simp only [h1, Outcome.bind]
        exact i1
      · rw [i3, h3]
        simp only [if_true]
        rw [List.filter_filter]
        apply List.filter_congr
        intro a _
        by_cases hac : a = c0
        · subst hac; simp [hvc]
        · simp [hac]
    · obtain ⟨sp, c1, h1, h2, h3, h4⟩ := hrej false (by simp)
      obtain ⟨cs, sp', i1, i2, i3⟩ := ih { t with queue := (R ++ c' :: L').reverse, searchSpace := sp } c1 f rfl hnd.2 h2 hR' hf' h4
      refine ⟨c0 :: cs, sp', ?_, i2, ?_⟩
      · simp only [h1, Outcome.bind]
        simp only at i1
        rw [i1]
      · rw [i3, h3]
        apply List.filter_congr
        intro a _
        by_cases hac : a = c0
        · subst hac; simp [hvc]
        · simp [hac]
    · exact absurd hvc (hR c0 (by simp))

/-- First sample of the next configuration, from any tuner whose `getNextConfig` has just moved on to the list `R ++ c' :: L'`. -/
theorem first_sample {cfg : TunerCfg σ C} (hst : cfg.strategies = []) (hmax : 0 < cfg.maxSamples) {v : C → Verdict} {c' : C}
    {L' R : List C} {t u : Tuner σ C} {c0 : C} {p j fuel : Nat} {D : List (C × Int)}
    (hnext : t.getNextConfig cfg = .ok (u, c0, true)) (hc0 : u.currentConfig = .ok c0)
    (hq : u.queue = (R ++ c' :: L').reverse) (hnd : (R ++ c' :: L').Nodup) (hsp : TwoCompatible v u.searchSpace)
    (hR : ∀ r ∈ R, v r ≠ .applicable) (hv : v c' = .applicable) (hf : R.length < fuel)
    (htun : u.isTuning = true) (hforce : u.forceRetune = false) (hs1 : u.samplesReb = []) (hs2 : u.samplesNot = [])
    (hp : u.tuningPhase = p) (hj : u.iteration % cfg.tuningInterval = j) (hjlt : j + 1 < cfg.tuningInterval)
    (hev : EvidenceIs u.evidence p D) (x : Int × Bool) :
    ∃ t' D', tunerRun cfg fuel v t [x] = .ok (t', [c']) ∧ Sampling cfg p (j + 1) t' c' L' [x] D' ∧
      TwoCompatible v t'.searchSpace ∧ Keeps v u.searchSpace t'.searchSpace ∧
      (1 < cfg.maxSamples → D' = D) ∧
      (1 = cfg.maxSamples → ∃ w, D' = D ++ [(c', w)] ∧ (cfg.smooth = none → w = chunkEstimate cfg [x])) := by
  obtain ⟨cs, sp, h1, h2, h3⟩ := reject_loop (cfg := cfg) hst (c' := c') (L' := L') hv R u c0 fuel hq hnd hsp hR hf hc0
  have hS : Sampling cfg p j ({ u with queue := (c' :: L').reverse, searchSpace := sp }) c' L' [] D :=
    ⟨rfl, htun, hforce, by simpa using hs1, by simpa using hs2, hp, hj, hev⟩
  obtain ⟨t', m1, m2, m3, D', m4, m5, m6⟩ := sample_one hS hmax hjlt x
  refine ⟨t'.bump cfg false, D', ?_, m4, ?_, ?_, m5, m6⟩
  · have hcur : t'.currentConfig = .ok c' := currentConfig_ok.2 (by rw [m2]; simp)
    unfold tunerRun tunerIteration Tuner.select
    rw [hnext]
    simp only [Outcome.bind, h1, m1, hcur, tunerRun]
  · have : (t'.bump cfg false).searchSpace = t'.searchSpace := rfl
    rw [this, m3]
    exact h2
  · have : (t'.bump cfg false).searchSpace = t'.searchSpace := rfl
    rw [this, m3]
    exact ⟨_, h3, fun c hc => by simp [hc]⟩

omit [DecidableEq C] in
theorem inTuning_of {cfg : TunerCfg σ C} {v : C → Verdict} {t : Tuner σ C} (hsp : TwoCompatible v t.searchSpace)
    (h : t.isTuning = true ∨ t.iteration % cfg.tuningInterval = 0) : t.inTuningPhase cfg = true := by
  have : t.trivial = false := by
    unfold Tuner.trivial
    simpa using hsp.length
  unfold Tuner.inTuningPhase
  rw [this]
  rcases h with h | h <;> simp [h]

/-- The remaining samples of a configuration. -/
theorem more_samples {cfg : TunerCfg σ C} {v : C → Verdict} {c : C} {L : List C} {p fuel : Nat}
    (hv : v c = .applicable) (hf : 0 < fuel) : ∀ (ys : List (Int × Bool)) (j : Nat) (t : Tuner σ C) (A : List (Int × Bool))
      (D : List (C × Int)), Sampling cfg p j t c L A D → TwoCompatible v t.searchSpace →
      A.length + ys.length = cfg.maxSamples → j + ys.length < cfg.tuningInterval →
      ∃ t' D', tunerRun cfg fuel v t ys = .ok (t', List.replicate ys.length c) ∧
        Sampling cfg p (j + ys.length) t' c L (A ++ ys) D' ∧ t'.searchSpace = t.searchSpace ∧
        (ys = [] → D' = D) ∧
        (ys ≠ [] → ∃ w, D' = D ++ [(c, w)] ∧ (cfg.smooth = none → w = chunkEstimate cfg (A ++ ys))) := by
  intro ys
  induction ys with
  | nil =>
    intro j t A D hS hsp _ _
    exact ⟨t, D, rfl, by simpa using hS, rfl, fun _ => rfl, fun h => absurd rfl h⟩
  | cons y ys ih =>
    intro j t A D hS hsp hl hj
    simp only [List.length_cons] at hl hj
    have hcur0 : t.currentConfig = .ok c := currentConfig_ok.2 (by rw [hS.queue]; simp)
    have hnext : t.getNextConfig cfg = .ok (t, c, true) := by
      unfold Tuner.getNextConfig
      rw [inTuning_of hsp (.inl hS.tuning)]
      simp only [Bool.not_true, Bool.false_eq_true, if_false]
      rw [if_pos (by rw [numSamples_of hS.reb hS.notReb]; omega), hcur0]
      rfl
    obtain ⟨t1, m1, m2, m3, D1, m4, m5, m6⟩ := sample_one hS (by omega) (by omega) y
    have hcur : t1.currentConfig = .ok c := currentConfig_ok.2 (by rw [m2, hS.queue]; simp)
    have hstep : tunerIteration cfg fuel v t y = .ok t1 := by
      obtain ⟨f, rfl⟩ : ∃ f, fuel = f + 1 := ⟨fuel - 1, by omega⟩
      unfold tunerIteration Tuner.select
      rw [hnext]
      simp only [Outcome.bind]
      unfold selectLoop
      simp only [hv, Outcome.bind, m1]
    have hsp1 : TwoCompatible v (t1.bump cfg false).searchSpace := by
      have : (t1.bump cfg false).searchSpace = t1.searchSpace := rfl
      rw [this, m3]; exact hsp
    obtain ⟨t', D', i1, i2, i3, i4, i5⟩ := ih (j + 1) (t1.bump cfg false) (A ++ [y]) D1 m4 hsp1
      (by simp; omega) (by omega)
    refine ⟨t', D', ?_, ?_, i3.trans m3, by simp, fun _ => ?_⟩
    · unfold tunerRun
      rw [hstep]
      simp only [Outcome.bind, hcur, i1, List.length_cons, List.replicate_succ]
    · have h1 : j + 1 + ys.length = j + (y :: ys).length := by simp; omega
      rw [h1] at i2
      simpa using i2
    · by_cases hys : ys = []
      · subst hys
        simp only [List.length_nil] at hl
        rw [i4 rfl]
        exact m6 (by omega)
      · obtain ⟨w, w1, w2⟩ := i5 hys
        have : ys.length ≠ 0 := by simpa using hys
        refine ⟨w, ?_, ?_⟩
        · rw [w1, m5 (by omega)]
        · intro hs
          rw [w2 hs]
          simp

/-- Moving on to the next applicable configuration. -/
theorem advance_next {cfg : TunerCfg σ C} (hst : cfg.strategies = []) {c c0 : C} {L : List C} {p j : Nat} {t : Tuner σ C}
    {v : C → Verdict} {A : List (Int × Bool)} {D : List (C × Int)} (hS : Sampling cfg p j t c (c0 :: L) A D)
    (hsp : TwoCompatible v t.searchSpace) (hA : A.length = cfg.maxSamples) :
    t.getNextConfig cfg = .ok ({ t with samplesNot := [], samplesReb := [], queue := (c0 :: L).reverse }, c0, true) := by
  have hq : t.queue.dropLast = (c0 :: L).reverse := by rw [hS.queue]; simp
  have hne : t.queue.isEmpty = false := by rw [hS.queue]; simp
  unfold Tuner.getNextConfig
  rw [inTuning_of hsp (.inl hS.tuning)]
  simp only [Bool.not_true, Bool.false_eq_true, if_false]
  rw [if_neg (by rw [numSamples_of hS.reb hS.notReb]; omega)]
  have htune : t.tuneConfiguration cfg =
      .ok ({ t with samplesNot := [], samplesReb := [], queue := (c0 :: L).reverse }, true) := by
    unfold Tuner.tuneConfiguration
    rw [hne]
    have h2 := hS.tuning
    have h3 := hS.noForce
    have hcond : ¬ ((t.iteration % cfg.tuningInterval = 0 ∧ (!t.isTuning) = true) ∨ t.forceRetune = true) := by
      rw [h2, h3]; simp
    have hne2 : (c0 :: L).reverse.isEmpty = false := by simp
    simp [hst, runOptimize, hq, h2, h3]
  rw [htune]
  simp [Outcome.bind, Tuner.currentConfig]

omit [DecidableEq C] in
theorem split_first {v : C → Verdict} : ∀ {L : List C}, L.filter (fun c => v c = .applicable) ≠ [] →
    ∃ R c' L', L = R ++ c' :: L' ∧ (∀ r ∈ R, v r ≠ .applicable) ∧ v c' = .applicable := by
  intro L
  induction L with
  | nil => simp
  | cons a L ih =>
    intro h
    by_cases ha : v a = .applicable
    · exact ⟨[], a, L, rfl, by simp, ha⟩
    · rw [List.filter_cons_of_neg (by simpa using ha)] at h
      obtain ⟨R, c', L', rfl, h2, h3⟩ := ih h
      refine ⟨a :: R, c', L', rfl, ?_, h3⟩
      intro r hr
      rcases List.mem_cons.1 hr with rfl | hr
      · exact ha
      · exact h2 r hr

/-- The configurations of a phase after the first one. -/
theorem phase_rest {cfg : TunerCfg σ C} (hst : cfg.strategies = []) (hmax : 0 < cfg.maxSamples) {v : C → Verdict} {p fuel : Nat} :
    ∀ (n : Nat) (L : List C), L.length = n → ∀ (j : Nat) (t : Tuner σ C) (c : C) (A : List (Int × Bool)) (D : List (C × Int))
      (xs : List (Int × Bool)),
      Sampling cfg p j t c L A D → A.length = cfg.maxSamples → L.Nodup → TwoCompatible v t.searchSpace →
      (∀ x, L.getLast? = some x → v x = .applicable) → L.length < fuel →
      xs.length = (L.filter (fun c => v c = .applicable)).length * cfg.maxSamples → j + xs.length < cfg.tuningInterval →
      ∃ t' c' A' ws, tunerRun cfg fuel v t xs =
          .ok (t', (L.filter (fun c => v c = .applicable)).flatMap (List.replicate cfg.maxSamples)) ∧
        Sampling cfg p (j + xs.length) t' c' [] A' (D ++ ws) ∧ A'.length = cfg.maxSamples ∧
        TwoCompatible v t'.searchSpace ∧ Keeps v t.searchSpace t'.searchSpace ∧
        ws.map Prod.fst = L.filter (fun c => v c = .applicable) ∧
        (cfg.smooth = none → ws.map Prod.snd = (List.range ws.length).map
          (fun i => chunkEstimate cfg ((xs.drop (i * cfg.maxSamples)).take cfg.maxSamples))) := by
  intro n
  induction n using Nat.strong_induction_on with
  | _ n ih =>
    intro L hLn j t c A D xs hS hA hnd hsp hlast hf hxs hj
    by_cases hemp : L.filter (fun c => v c = .applicable) = []
    · have hL : L = [] := by
        by_contra hne
        obtain ⟨x, hx⟩ : ∃ x, L.getLast? = some x := by
          cases h : L.getLast? with
          | none => exact absurd (List.getLast?_eq_none_iff.1 h) hne
          | some x => exact ⟨x, rfl⟩
        have h1 := hlast x hx
        have h2 : x ∈ L := List.mem_of_getLast? hx
        have : x ∈ L.filter (fun c => v c = .applicable) := by
          rw [List.mem_filter]; exact ⟨h2, by simpa using h1⟩
        rw [hemp] at this
        simp at this
      subst hL
      simp only [List.filter_nil, List.length_nil, Nat.zero_mul] at hxs
      have hxs' := List.length_eq_zero_iff.1 hxs
      subst hxs'
      exact ⟨t, c, A, [], rfl, by simpa using hS, hA, hsp, Keeps.refl _ _, rfl, by simp⟩
    · obtain ⟨R, c', L', hL, hR, hv⟩ := split_first hemp
      have hfil : L.filter (fun c => v c = .applicable) = c' :: L'.filter (fun c => v c = .applicable) := by
        rw [hL, List.filter_append, List.filter_cons_of_pos (by simpa using hv), List.filter_eq_nil_iff.2]
        · rfl
        · intro a ha; simpa using hR a ha
      rw [hfil] at hxs
      simp only [List.length_cons] at hxs
      obtain ⟨c0, L0, hc0⟩ : ∃ c0 L0, L = c0 :: L0 := by
        cases L with
        | nil => simp at hemp
        | cons a l => exact ⟨a, l, rfl⟩
      have hS0 : Sampling cfg p j t c (c0 :: L0) A D := by rw [← hc0]; exact hS
      have hnext := advance_next hst hS0 hsp hA
      have hmul : ((L'.filter (fun c => v c = .applicable)).length + 1) * cfg.maxSamples =
          (L'.filter (fun c => v c = .applicable)).length * cfg.maxSamples + cfg.maxSamples := Nat.succ_mul _ _
      -- split the measurements
      obtain ⟨x, ys, zs, hxyz, hys⟩ : ∃ x ys zs, xs = (x :: ys) ++ zs ∧ (x :: ys).length = cfg.maxSamples := by
        have h1 : (xs.take cfg.maxSamples).length = cfg.maxSamples := by rw [List.length_take]; omega
        cases h : xs.take cfg.maxSamples with
        | nil => rw [h] at h1; simp at h1; omega
        | cons x ys =>
          refine ⟨x, ys, xs.drop cfg.maxSamples, ?_, by rw [← h]; exact h1⟩
          rw [← h, List.take_append_drop]
      have hzs : zs.length = (L'.filter (fun c => v c = .applicable)).length * cfg.maxSamples := by
        rw [hxyz, List.length_append, hys] at hxs
        omega
      have hlen : xs.length = cfg.maxSamples + zs.length := by rw [hxyz, List.length_append, hys]
      simp only [List.length_cons] at hys
      have hLlen : L.length = R.length + 1 + L'.length := by rw [hL]; simp; omega
      obtain ⟨t1, D1, f1, f2, f3, fk, f4, f5⟩ := first_sample hst hmax (v := v) (c' := c') (L' := L') (R := R) (p := p) (j := j)
        (fuel := fuel) (D := D) hnext (by simp [Tuner.currentConfig]) (by rw [← hL, hc0])
        (by rw [← hL]; exact hnd) hsp hR hv (by omega) hS.tuning hS.noForce rfl rfl hS.phase hS.iter (by omega) hS.ev x
      obtain ⟨t2, D2, g1, g2, g3, g4, g5⟩ := more_samples (fuel := fuel) hv (by omega) ys (j + 1) t1 [x] D1 f2 f3
        (by simp; omega) (by omega)
      have hD2 : ∃ w, D2 = D ++ [(c', w)] ∧ (cfg.smooth = none → w = chunkEstimate cfg (x :: ys)) := by
        by_cases h : ys = []
        · subst h
          simp only [List.length_nil] at hys
          rw [g4 rfl]
          exact f5 (by omega)
        · obtain ⟨w, w1, w2⟩ := g5 h
          have : ys.length ≠ 0 := by simpa using h
          exact ⟨w, by rw [w1, f4 (by omega)], fun hs => by rw [w2 hs]; rfl⟩
      obtain ⟨w, w1, w2⟩ := hD2
      have hnd' : L'.Nodup := by
        rw [hL] at hnd
        exact (List.nodup_cons.1 (List.nodup_append.1 hnd).2.1).2
      obtain ⟨t3, c3, A3, ws, k1, k2, k3, k4, kk, k5, k6⟩ := ih L'.length (by omega) L' rfl (j + 1 + ys.length) t2 c'
        ([x] ++ ys) D2 zs g2 (by simp; omega) hnd' (by rw [g3]; exact f3)
        (by
          intro y hy
          apply hlast y
          rw [hL, List.getLast?_append, List.getLast?_cons, hy]
          rfl)
        (by omega) hzs (by omega)
      refine ⟨t3, c3, A3, (c', w) :: ws, ?_, ?_, k3, k4, Keeps.trans fk (by rw [← g3]; exact kk), ?_, ?_⟩
      · have a1 := tunerRun_append f1 g1
        have a2 := tunerRun_append a1 k1
        rw [hfil, List.flatMap_cons, hxyz]
        have e1 : [x] ++ ys ++ zs = x :: ys ++ zs := rfl
        have e2 : [c'] ++ List.replicate ys.length c' = List.replicate cfg.maxSamples c' := by
          rw [← hys, List.replicate_succ]; rfl
        rw [e1, e2] at a2
        exact a2
      · have : j + xs.length = j + 1 + ys.length + zs.length := by omega
        rw [this]
        rw [w1, List.append_assoc] at k2
        exact k2
      · rw [hfil, List.map_cons, k5]
      · intro hs
        have h6 := k6 hs
        have htk : xs.take cfg.maxSamples = x :: ys := by
          rw [hxyz, List.take_append_of_le_length (by simp; omega)]
          rw [List.take_of_length_le (by simp; omega)]
        have hdr : xs.drop cfg.maxSamples = zs := by
          rw [hxyz, List.drop_append_of_le_length (by simp; omega), List.drop_of_length_le (by simp; omega), List.nil_append]
        rw [List.map_cons, h6, List.length_cons, List.range_succ_eq_map, List.map_cons, List.map_map]
        congr 1
        · rw [w2 hs]
          simp [htk]
        · apply List.map_congr_left
          intro i _
          simp only [Function.comp]
          congr 2
          rw [Nat.succ_mul, Nat.add_comm, ← List.drop_drop, hdr]

/-- A tuner right before the first `computeInteractions` of a phase `p` of which nothing is known yet. -/
structure PhaseStart (cfg : TunerCfg σ C) (v : C → Verdict) (apps : List C) (p j : Nat) (t : Tuner σ C) : Prop where
  queue : t.queue ≠ []
  samples : cfg.maxSamples ≤ t.numSamples
  trigger : (t.iteration % cfg.tuningInterval = 0 ∧ t.isTuning = false) ∨ t.forceRetune = true
  iter : t.iteration % cfg.tuningInterval = j
  phase : t.tuningPhase = p
  fresh : EvidenceIs t.evidence p []
  apps_eq : t.searchSpace.filter (fun c => v c = .applicable) = apps
  nodup : t.searchSpace.Nodup
  compat : TwoCompatible v t.searchSpace
  last : ∀ x, t.searchSpace.getLast? = some x → v x = .applicable

/-- The tuner after the strategies have been reset. -/
def begun (t : Tuner σ C) (S : List C) : Tuner σ C :=
  { t with
    samplesNot := [], samplesReb := [], isTuning := true, forceRetune := false, iterationBaseline := 0, queue := S.reverse }

theorem PhaseStart.next {cfg : TunerCfg σ C} (hst : cfg.strategies = []) {v : C → Verdict} {apps : List C} {p j : Nat}
    {t : Tuner σ C} (h : PhaseStart cfg v apps p j t) : ∃ c0 S, t.searchSpace = c0 :: S ∧
    t.getNextConfig cfg = .ok (begun t (c0 :: S), c0, true) := by
  obtain ⟨c0, S, hS⟩ : ∃ c0 S, t.searchSpace = c0 :: S := by
    obtain ⟨a, ha, -⟩ := h.compat
    cases hh : t.searchSpace with
    | nil => rw [hh] at ha; simp at ha
    | cons a l => exact ⟨a, l, rfl⟩
  refine ⟨c0, S, hS, ?_⟩
  have htriv : t.trivial = false := by
    unfold Tuner.trivial
    simpa using h.compat.length
  have hin : t.inTuningPhase cfg = true := by
    unfold Tuner.inTuningPhase
    rw [htriv]
    rcases h.trigger with h | h
    · simp [h.1]
    · simp [h]
  have hne : t.queue.isEmpty = false := by
    have := h.queue
    cases hq : t.queue with
    | nil => exact absurd hq this
    | cons => rfl
  have htune : t.tuneConfiguration cfg = .ok (begun t (c0 :: S), true) := by
    unfold Tuner.tuneConfiguration
    have hcond : (t.iteration % cfg.tuningInterval = 0 ∧ (!t.isTuning) = true) ∨ t.forceRetune = true := by
      rcases h.trigger with h | h
      · left; simp [h.1, h.2]
      · right; exact h
    simp only [hne, Bool.false_eq_true, if_false, hst, runReset, hS]
    rw [if_pos hcond]
    simp [begun, hS]
  unfold Tuner.getNextConfig
  rw [hin]
  simp only [Bool.not_true, Bool.false_eq_true, if_false]
  rw [if_neg (by have := h.samples; omega), htune]
  simp [Outcome.bind, Tuner.currentConfig, begun]

/-- After the phase: only `c` is queued and used. -/
structure Settled (cfg : TunerCfg σ C) (v : C → Verdict) (p j : Nat) (t : Tuner σ C) (c : C) (D : List (C × Int)) : Prop where
  queue : t.queue = [c]
  tuning : t.isTuning = false
  noForce : t.forceRetune = false
  samples : cfg.maxSamples ≤ t.numSamples
  phase : t.tuningPhase = p
  iter : t.iteration % cfg.tuningInterval = j
  ev : EvidenceIs t.evidence p D
  compat : TwoCompatible v t.searchSpace
  ok : v c = .applicable

/-- End of a phase: a configuration with the smallest evidence is chosen. -/
theorem phase_end {cfg : TunerCfg σ C} (hst : cfg.strategies = []) {v : C → Verdict} {p j fuel : Nat} {t : Tuner σ C} {c : C}
    {A : List (Int × Bool)} {D : List (C × Int)} (hS : Sampling cfg p j t c [] A D) (hA : A.length = cfg.maxSamples)
    (hsp : TwoCompatible v t.searchSpace) (hnd : (D.map Prod.fst).Nodup) (hne : D ≠ []) (hval : ∀ d ∈ D, d.2 < longMax)
    (happ : ∀ d ∈ D, v d.1 = .applicable) (hf : 0 < fuel) :
    ∃ d ∈ D, (∀ d' ∈ D, d.2 ≤ d'.2) ∧ ∃ t1, Settled cfg v p j t1 d.1 D ∧ t1.searchSpace = t.searchSpace ∧
      ∀ x, tunerIteration cfg fuel v t x = .ok t1 := by
  -- entries of the map of this phase are exactly `D`
  have hmem : ∀ k es, (k, es) ∈ t.evidence → ∀ e ∈ es, e.tuningPhase = p → (k, e.value) ∈ D := by
    intro k es hm e he hp
    have h1 := hS.ev.vals k
    rw [getEvidence_of_mem hS.ev.keys hm] at h1
    have h2 : e.value ∈ (D.filter (fun d => d.1 = k)).map Prod.snd := by
      rw [← h1]
      exact List.mem_map.2 ⟨e, List.mem_filter.2 ⟨he, by simpa using hp⟩, rfl⟩
    obtain ⟨d, hd, hd2⟩ := List.mem_map.1 h2
    obtain ⟨hd, hk⟩ := List.mem_filter.1 hd
    simp only [decide_eq_true_eq] at hk
    rw [← hk, ← hd2]
    exact hd
  have hmem' : ∀ d ∈ D, ∃ es e, (d.1, es) ∈ t.evidence ∧ e ∈ es ∧ e.tuningPhase = p ∧ e.value = d.2 := by
    intro d hd
    have h1 := hS.ev.vals d.1
    have h2 : d.2 ∈ (D.filter (fun d' => d'.1 = d.1)).map Prod.snd :=
      List.mem_map.2 ⟨d, List.mem_filter.2 ⟨hd, by simp⟩, rfl⟩
    rw [← h1] at h2
    obtain ⟨e, he, he2⟩ := List.mem_map.1 h2
    obtain ⟨he, hp⟩ := List.mem_filter.1 he
    obtain ⟨es, x1, x2⟩ := mem_of_getEvidence he
    exact ⟨es, e, x1, x2, by simpa using hp, he2⟩
  have huniqD : ∀ d ∈ D, ∀ d' ∈ D, d.1 = d'.1 → d = d' := fun d hd d' hd' h => List.inj_on_of_nodup_map hnd hd hd' h
  obtain ⟨k, es, e, o1, o2, o3, o4, o5⟩ := getOptimal_spec (m := t.evidence) (p := p)
    (by
      intro k es hm e he e' he' hp hp'
      have h1 := hmem k es hm e he hp
      have h2 := hmem k es hm e' he' hp'
      have := huniqD _ h1 _ h2 rfl
      exact (Prod.mk.injEq _ _ _ _ ▸ this).2)
    (fun k es hm e he hp => hval _ (hmem k es hm e he hp))
    (by
      obtain ⟨d, hd⟩ := List.exists_mem_of_ne_nil D hne
      obtain ⟨es, e, h1, h2, h3, -⟩ := hmem' d hd
      exact ⟨d.1, es, e, h1, h2, h3⟩)
  have hkD := hmem k es o2 e o3 o4
  have hvk := happ _ hkD
  refine ⟨(k, e.value), hkD, ?_, ?_⟩
  · intro d' hd'
    obtain ⟨es', e', h1, h2, h3, h4⟩ := hmem' d' hd'
    rw [← h4]
    exact o5 d'.1 es' h1 e' h2 h3
  · have hqne : t.queue.isEmpty = false := by rw [hS.queue]; rfl
    have hq : t.queue.dropLast = [] := by rw [hS.queue]; simp
    obtain ⟨t1, ht1⟩ : ∃ t1 : Tuner σ C, t1 = { t with
          samplesNot := [], samplesReb := resizeVec [] cfg.maxSamples, queue := [k], isTuning := false, iterationBaseline := 0 } :=
      ⟨_, rfl⟩
    have hnext : t.getNextConfig cfg = .ok (t1, k, false) := by
      rw [ht1]
      unfold Tuner.getNextConfig
      rw [inTuning_of hsp (.inl hS.tuning)]
      simp only [Bool.not_true, Bool.false_eq_true, if_false]
      rw [if_neg (by rw [numSamples_of hS.reb hS.notReb]; omega)]
      unfold Tuner.tuneConfiguration
      simp only [hqne, hst, runOptimize, hq, hS.tuning, hS.noForce, hS.phase]
      simp [o1, Outcome.bind, Tuner.currentConfig]
    refine ⟨t1, ?_, by rw [ht1], fun x => ?_⟩
    rotate_left
    · unfold tunerIteration Tuner.select
      rw [hnext]
      obtain ⟨f, rfl⟩ : ∃ f, fuel = f + 1 := ⟨fuel - 1, by omega⟩
      simp only [Outcome.bind]
      unfold selectLoop
      simp only [hvk]
      simp [Tuner.measure]
    · subst ht1
      refine ⟨rfl, rfl, hS.noForce, ?_, hS.phase, hS.iter, hS.ev, hsp, hvk⟩
      simp [Tuner.numSamples, resizeVec]

/-- Iterations after the phase, up to the next interval boundary. -/
theorem settled_run {cfg : TunerCfg σ C} {v : C → Verdict} {p fuel : Nat} {c : C} {D : List (C × Int)} (hf : 0 < fuel) :
    ∀ (ys : List (Int × Bool)) (j : Nat) (t : Tuner σ C), Settled cfg v p j t c D → 0 < j → j + ys.length < cfg.tuningInterval →
      ∃ t', tunerRun cfg fuel v t ys = .ok (t', List.replicate ys.length c) ∧ Settled cfg v p (j + ys.length) t' c D ∧
        t'.searchSpace = t.searchSpace := by
  intro ys
  induction ys with
  | nil => intro j t h _ _; exact ⟨t, rfl, by simpa using h, rfl⟩
  | cons y ys ih =>
    intro j t h hj hl
    simp only [List.length_cons] at hl
    have hcur : t.currentConfig = .ok c := currentConfig_ok.2 (by rw [h.queue]; rfl)
    have hin : t.inTuningPhase cfg = false := by
      unfold Tuner.inTuningPhase
      have : ¬ (t.iteration % cfg.tuningInterval = 0) := by rw [h.iter]; omega
      simp [this, h.tuning, h.noForce]
    have hstep : tunerIteration cfg fuel v t y = .ok t := by
      unfold tunerIteration Tuner.select Tuner.getNextConfig
      rw [hin, hcur]
      obtain ⟨f, rfl⟩ : ∃ f, fuel = f + 1 := ⟨fuel - 1, by omega⟩
      simp only [Bool.not_false, if_true, Outcome.bind]
      unfold selectLoop
      simp [h.ok, Tuner.measure]
    have hmod : (t.iteration + 1) % cfg.tuningInterval = j + 1 := by
      rw [Nat.add_mod, h.iter, Nat.mod_eq_of_lt (show 1 < cfg.tuningInterval by omega), Nat.mod_eq_of_lt (by omega)]
    have hS' : Settled cfg v p (j + 1) (t.bump cfg false) c D := by
      refine ⟨h.queue, h.tuning, h.noForce, h.samples, ?_, hmod, h.ev, h.compat, h.ok⟩
      simp [Tuner.bump, hmod, h.phase]
    obtain ⟨t', i1, i2, i3⟩ := ih (j + 1) _ hS' (by omega) (by omega)
    refine ⟨t', ?_, ?_, i3⟩
    · unfold tunerRun
      rw [hstep]
      simp only [Outcome.bind, hcur, i1, List.length_cons, List.replicate_succ]
    · have : j + 1 + ys.length = j + (y :: ys).length := by simp; omega
      rw [← this]; exact i2

end Verif
