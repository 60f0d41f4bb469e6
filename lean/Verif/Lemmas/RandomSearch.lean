import Verif.Model.RandomSearch
import Verif.Lemmas.NarrowedIntervals
/-! Tuning phases with random search. -/
namespace Verif

section general
variable {σ C : Type} [DecidableEq C]

/-- If choosing a configuration leads to a state that keeps it, the run can be continued from there. -/
theorem run_of_next {cfg : TunerCfg σ C} {fuel : Nat} {v : C → Verdict} {t t1 : Tuner σ C} {c : C}
    (h : t.getNextConfig cfg = .ok (t1, c, true)) (h1 : t1.getNextConfig cfg = .ok (t1, c, true)) (x : Int × Bool) (xs : List (Int × Bool)) :
    tunerRun cfg fuel v t (x :: xs) = tunerRun cfg fuel v t1 (x :: xs) := by
  unfold tunerRun tunerIteration Tuner.select
  rw [h, h1]

/-- End of a phase because the strategies leave nothing in the queue. -/
theorem phase_end_wiped {cfg : TunerCfg σ C} {v : C → Verdict} {p j fuel : Nat} {t : Tuner σ C} {c : C} {L : List C}
    {A : List (Int × Bool)} {D : List (C × Int)} (hS : Sampling cfg p j t c L A D) (hA : A.length = cfg.maxSamples)
    {s : σ} (hwipe : runOptimize t.evidence cfg.strategies L.reverse t.strat = ([], s))
    (hsp : TwoCompatible v t.searchSpace) (hnd : (D.map Prod.fst).Nodup) (hne : D ≠ []) (hval : ∀ d ∈ D, d.2 < longMax)
    (happ : ∀ d ∈ D, v d.1 = .applicable) (hf : 0 < fuel) :
    ∃ d ∈ D, (∀ d' ∈ D, d.2 ≤ d'.2) ∧ ∃ t1, Settled cfg v p j t1 d.1 D ∧ t1.searchSpace = t.searchSpace ∧ t1.strat = s ∧
      ∀ x, tunerIteration cfg fuel v t x = .ok t1 := by
  have hmem : ∀ k es, (k, es) ∈ t.evidence → ∀ e ∈ es, e.tuningPhase = p → (k, e.value) ∈ D := by
    intro k es hm e he hp
    have h1 := hS.ev.vals k
    rw [getEvidence_of_mem hS.ev.keys hm] at h1
    have h2 : e.value ∈ (D.filter (fun d => d.1 = k)).map Prod.snd := by
      rw [← h1]
      exact List.mem_map.2 ⟨e, List.mem_filter.2 ⟨he, by simpa using hp⟩, rfl⟩
    obtain ⟨d, hd, hd2⟩ := List.mem_map.1 h2
    obtain ⟨hd, hk⟩ := List.mem_filter.1 hd
    simp only [decide_eq_true_eq] at hk
    rw [← hk, ← hd2]
    exact hd
  have hmem' : ∀ d ∈ D, ∃ es e, (d.1, es) ∈ t.evidence ∧ e ∈ es ∧ e.tuningPhase = p ∧ e.value = d.2 := by
    intro d hd
    have h1 := hS.ev.vals d.1
    have h2 : d.2 ∈ (D.filter (fun d' => d'.1 = d.1)).map Prod.snd :=
      List.mem_map.2 ⟨d, List.mem_filter.2 ⟨hd, by simp⟩, rfl⟩
    rw [← h1] at h2
    obtain ⟨e, he, he2⟩ := List.mem_map.1 h2
    obtain ⟨he, hp⟩ := List.mem_filter.1 he
    obtain ⟨es, x1, x2⟩ := mem_of_getEvidence he
    exact ⟨es, e, x1, x2, by simpa using hp, he2⟩
  have huniqD : ∀ d ∈ D, ∀ d' ∈ D, d.1 = d'.1 → d = d' := fun d hd d' hd' h => List.inj_on_of_nodup_map hnd hd hd' h
  obtain ⟨k, es, e, o1, o2, o3, o4, o5⟩ := getOptimal_spec (m := t.evidence) (p := p)
    (by
      intro k es hm e he e' he' hp hp'
      have h1 := hmem k es hm e he hp
      have h2 := hmem k es hm e' he' hp'
      have := huniqD _ h1 _ h2 rfl
      exact (Prod.mk.injEq _ _ _ _ ▸ this).2)
    (fun k es hm e he hp => hval _ (hmem k es hm e he hp))
    (by
      obtain ⟨d, hd⟩ := List.exists_mem_of_ne_nil D hne
      obtain ⟨es, e, h1, h2, h3, -⟩ := hmem' d hd
      exact ⟨d.1, es, e, h1, h2, h3⟩)
  have hkD := hmem k es o2 e o3 o4
  have hvk := happ _ hkD
  refine ⟨(k, e.value), hkD, ?_, ?_⟩
  · intro d' hd'
    obtain ⟨es', e', h1, h2, h3, h4⟩ := hmem' d' hd'
    rw [← h4]
    exact o5 d'.1 es' h1 e' h2 h3
  · have hqne : t.queue.isEmpty = false := by rw [hS.queue]; simp
    have hq : t.queue.dropLast = L.reverse := by rw [hS.queue]; simp
    obtain ⟨t1, ht1⟩ : ∃ t1 : Tuner σ C, t1 = { t with
          samplesNot := [], samplesReb := resizeVec [] cfg.maxSamples, queue := [k], isTuning := false, iterationBaseline := 0,
          strat := s } :=
      ⟨_, rfl⟩
    have hnext : t.getNextConfig cfg = .ok (t1, k, false) := by
      rw [ht1]
      unfold Tuner.getNextConfig
      rw [inTuning_of hsp (.inl hS.tuning)]
      simp only [Bool.not_true, Bool.false_eq_true, if_false]
      rw [if_neg (by rw [numSamples_of hS.reb hS.notReb]; omega)]
      unfold Tuner.tuneConfiguration
      simp only [hqne, hq, hS.tuning, hS.noForce, hS.phase, hwipe]
      simp [o1, Outcome.bind, Tuner.currentConfig]
    refine ⟨t1, ?_, by rw [ht1], by rw [ht1], fun x => ?_⟩
    rotate_left
    · unfold tunerIteration Tuner.select
      rw [hnext]
      obtain ⟨f, rfl⟩ : ∃ f, fuel = f + 1 := ⟨fuel - 1, by omega⟩
      simp only [Outcome.bind]
      unfold selectLoop
      simp only [hvk]
      simp [Tuner.measure]
    · subst ht1
      refine ⟨rfl, rfl, hS.noForce, ?_, hS.phase, hS.iter, hS.ev, hsp, hvk⟩
      simp [Tuner.numSamples, resizeVec]

/-- Right before the first iteration of a tuning interval. -/
structure IntervalBegin (cfg : TunerCfg σ C) (S : List C) (p : Nat) (t : Tuner σ C) : Prop where
  queue : t.queue ≠ []
  samples : cfg.maxSamples ≤ t.numSamples
  idle : t.isTuning = false
  noForce : t.forceRetune = false
  iter : t.iteration % cfg.tuningInterval = 0
  phase : t.tuningPhase = p
  fresh : EvidenceIs t.evidence p []
  space : t.searchSpace = S

theorem Settled.bump {cfg : TunerCfg σ C} {v : C → Verdict} {p j : Nat} {t : Tuner σ C} {c : C} {D : List (C × Int)}
    (h : Settled cfg v p j t c D) (hj : j + 1 < cfg.tuningInterval) : Settled cfg v p (j + 1) (t.bump cfg false) c D := by
  have hmod : (t.iteration + 1) % cfg.tuningInterval = j + 1 := by
    rw [Nat.add_mod, h.iter, Nat.mod_eq_of_lt (show 1 < cfg.tuningInterval by omega), Nat.mod_eq_of_lt (by omega)]
  refine ⟨h.queue, h.tuning, h.noForce, h.samples, ?_, hmod, h.ev, h.compat, h.ok⟩
  simp [Tuner.bump, hmod, h.phase]

theorem Settled.bump_last {cfg : TunerCfg σ C} {v : C → Verdict} {p j : Nat} {t : Tuner σ C} {c : C} {D : List (C × Int)}
    (h : Settled cfg v p j t c D) (hj : j + 1 = cfg.tuningInterval) : IntervalBegin cfg t.searchSpace (p + 1) (t.bump cfg false) := by
  have hmod : (t.iteration + 1) % cfg.tuningInterval = 0 := by
    rw [Nat.add_mod, h.iter]
    by_cases h1 : cfg.tuningInterval = 1
    · rw [h1]; exact Nat.mod_one _
    · rw [Nat.mod_eq_of_lt (show 1 < cfg.tuningInterval by omega), hj, Nat.mod_self]
  refine ⟨?_, h.samples, h.tuning, h.noForce, hmod, ?_, h.ev.next, rfl⟩
  · have : (t.bump cfg false).queue = t.queue := rfl
    rw [this, h.queue]; simp
  · simp [Tuner.bump, hmod, h.phase]

/-- The rest of the interval after the phase. -/
theorem settled_end {cfg : TunerCfg σ C} {v : C → Verdict} {p fuel : Nat} {c : C} {D : List (C × Int)} (hf : 0 < fuel) :
    ∀ (y : Int × Bool) (ys : List (Int × Bool)) (j : Nat) (t t2 : Tuner σ C), (∀ x, tunerIteration cfg fuel v t x = .ok t2) →
      Settled cfg v p j t2 c D → j + 1 + ys.length = cfg.tuningInterval →
      ∃ t', tunerRun cfg fuel v t (y :: ys) = .ok (t', List.replicate (ys.length + 1) c) ∧
        IntervalBegin cfg t2.searchSpace (p + 1) t' ∧ t'.strat = t2.strat := by
  intro y ys
  induction ys generalizing y with
  | nil =>
    intro j t t2 h hs hj
    have hcur : t2.currentConfig = .ok c := currentConfig_ok.2 (by rw [hs.queue]; rfl)
    exact ⟨t2.bump cfg false, by simp only [tunerRun, h y, Outcome.bind, hcur]; rfl, hs.bump_last (by simpa using hj), rfl⟩
  | cons z zs ih =>
    intro j t t2 h hs hj
    simp only [List.length_cons] at hj
    have hs2 := hs.bump (by omega)
    have hcur : t2.currentConfig = .ok c := currentConfig_ok.2 (by rw [hs.queue]; rfl)
    have hcur2 : (t2.bump cfg false).currentConfig = .ok c := currentConfig_ok.2 (by rw [hs2.queue]; rfl)
    have hstep : ∀ x, tunerIteration cfg fuel v (t2.bump cfg false) x = .ok (t2.bump cfg false) := by
      intro x
      have hin : (t2.bump cfg false).inTuningPhase cfg = false := by
        unfold Tuner.inTuningPhase
        have : ¬ ((t2.bump cfg false).iteration % cfg.tuningInterval = 0) := by rw [hs2.iter]; omega
        simp [this, hs2.tuning, hs2.noForce]
      unfold tunerIteration Tuner.select Tuner.getNextConfig
      rw [hin, hcur2]
      obtain ⟨f, rfl⟩ : ∃ f, fuel = f + 1 := ⟨fuel - 1, by omega⟩
      simp only [Bool.not_false, if_true, Outcome.bind]
      unfold selectLoop
      simp [hs2.ok, Tuner.measure]
    obtain ⟨t', i1, i2, i3⟩ := ih z (j + 1) _ _ hstep hs2 (by omega)
    refine ⟨t', ?_, i2, i3⟩
    have h1 : tunerRun cfg fuel v t (y :: z :: zs) =
        (tunerRun cfg fuel v (t2.bump cfg false) (z :: zs)).bind fun r => .ok (r.1, c :: r.2) := by
      conv_lhs => unfold tunerRun
      rw [h y]
      simp only [Outcome.bind, hcur]
    rw [h1, i1]
    rfl

theorem intervalBegin_init {cfg : TunerCfg σ C} {S : List C} {s : σ} {t : Tuner σ C}
    (h : Tuner.init cfg S s = .ok t) : IntervalBegin cfg S 0 t ∧ t.strat = s := by
  unfold Tuner.init at h
  split_ifs at h with hne
  cases h
  refine ⟨⟨?_, by simp [Tuner.numSamples], rfl, rfl, Nat.zero_mod _, rfl, ?_, rfl⟩, rfl⟩
  · simpa using hne
  · exact ⟨by simp, by simp [getEvidence], by simp [getEvidence]⟩

end general

/-! ### Random search -/

section
variable {C : Type}

/-- The configurations chosen one after the other, and the queue that is left each time; `k` values have been drawn before. -/
def drawn (draw : Nat → Nat → Nat) : Nat → Nat → List C → List C
  | _, 0, _ => []
  | k, n + 1, q =>
    match (swapBack q (draw k q.length)).getLast? with
    | none => []
    | some c => c :: drawn draw (k + 1) n (swapBack q (draw k q.length)).dropLast

theorem swapBack_spec {q : List C} {i : Nat} (hi : i < q.length) :
    (swapBack q i).getLast? = q[i]? ∧ (swapBack q i).Perm q := by
  unfold swapBack
  have hne : q ≠ [] := by rintro rfl; simp at hi
  have hb : q.getLast? = some (q[q.length - 1]'(by omega)) := by
    rw [List.getLast?_eq_getElem?, List.getElem?_eq_getElem]
  rw [hb, List.getElem?_eq_getElem hi]
  simp only
  refine ⟨?_, ?_⟩
  · rw [List.getLast?_eq_getElem?]
    simp only [List.length_set]
    rw [List.getElem?_set_self (by simp; omega)]
  · exact List.set_set_perm hi (by omega)


theorem drawn_spec {draw : Nat → Nat → Nat} (hdraw : ∀ k n, 0 < n → draw k n < n) : ∀ (n k : Nat) (q : List C), n ≤ q.length →
    (drawn draw k n q).length = n ∧ (drawn draw k n q).Subperm q := by
  intro n
  induction n with
  | zero => intro k q _; exact ⟨rfl, List.nil_subperm⟩
  | succ n ih =>
    intro k q hn
    have hpos : 0 < q.length := by omega
    obtain ⟨h1, h2⟩ := swapBack_spec (hdraw k q.length hpos)
    rw [List.getElem?_eq_getElem (hdraw k q.length hpos)] at h1
    simp only [drawn, h1]
    have hl : (swapBack q (draw k q.length)).dropLast.length = q.length - 1 := by rw [List.length_dropLast, h2.length_eq]
    obtain ⟨i1, i2⟩ := ih (k + 1) (swapBack q (draw k q.length)).dropLast (by omega)
    refine ⟨by simp [i1], ?_⟩
    obtain ⟨ys, hys⟩ := List.getLast?_eq_some_iff.1 h1
    rw [hys, List.dropLast_concat] at i2 ⊢
    have h3 : (q[draw k q.length]'(hdraw k q.length hpos) :: ys).Perm q := by
      refine List.Perm.trans ?_ h2
      rw [hys]
      exact (List.perm_append_singleton _ _).symm
    exact List.Subperm.trans ((List.subperm_cons _).2 i2) h3.subperm

end

section
variable {C : Type} [DecidableEq C] {cfg : TunerCfg RandomState C} {m : Nat} {draw : Nat → Nat → Nat}

/-- What the measurement does to the strategy. -/
theorem random_measure (hst : cfg.strategies = [randomStrategy m draw]) {t t' : Tuner RandomState C} {x : Int × Bool} {n : Nat}
    (hn : t.numSamples = n) (h : t.measure cfg true true x.1 x.2 = .ok t') :
    t'.strat = if n + 1 = cfg.maxSamples then { t.strat with numEvidence := t.strat.numEvidence + 1 } else t.strat := by
  unfold Tuner.measure at h
  rw [if_pos ⟨rfl, rfl⟩] at h
  unfold Tuner.addMeasurement at h
  obtain ⟨c, -, h⟩ := Outcome.bind_ok.1 h
  obtain ⟨xt, xb⟩ := x
  rw [hst] at h
  cases xb
  · have e : ({ t with samplesNot := t.samplesNot ++ [xt] } : Tuner RandomState C).numSamples = n + 1 := by
      unfold Tuner.numSamples at hn ⊢
      simp; omega
    simp only [Bool.false_eq_true, if_false, e] at h
    by_cases h1 : t.numSamples ≥ cfg.maxSamples
    · rw [if_pos h1] at h; cases h
    · rw [if_neg h1] at h
      by_cases h2 : n + 1 = cfg.maxSamples
      · rw [if_pos h2] at h ⊢; cases h; rfl
      · rw [if_neg h2] at h ⊢; cases h; rfl
  · have e : ({ t with samplesReb := t.samplesReb ++ [xt] } : Tuner RandomState C).numSamples = n + 1 := by
      unfold Tuner.numSamples at hn ⊢
      simp; omega
    simp only [if_true, e] at h
    by_cases h1 : t.numSamples ≥ cfg.maxSamples
    · rw [if_pos h1] at h; cases h
    · rw [if_neg h1] at h
      by_cases h2 : n + 1 = cfg.maxSamples
      · rw [if_pos h2] at h ⊢; cases h; rfl
      · rw [if_neg h2] at h ⊢; cases h; rfl

/-- The samples of one configuration. -/
theorem random_samples (hst : cfg.strategies = [randomStrategy m draw]) {v : C → Verdict} {c : C} {L : List C} {p fuel : Nat}
    (hv : v c = .applicable) (hf : 0 < fuel) : ∀ (y : Int × Bool) (ys : List (Int × Bool)) (j : Nat) (t : Tuner RandomState C) (A : List (Int × Bool))
      (D : List (C × Int)), Sampling cfg p j t c L A D → TwoCompatible v t.searchSpace →
      A.length + ys.length + 1 = cfg.maxSamples → j + ys.length + 1 < cfg.tuningInterval →
      ∃ t' w, tunerRun cfg fuel v t (y :: ys) = .ok (t', List.replicate (ys.length + 1) c) ∧
        Sampling cfg p (j + ys.length + 1) t' c L (A ++ y :: ys) (D ++ [(c, w)]) ∧ t'.searchSpace = t.searchSpace ∧
        t'.strat = { t.strat with numEvidence := t.strat.numEvidence + 1 } ∧
        (cfg.smooth = none → w = chunkEstimate cfg (A ++ y :: ys)) := by
  intro y ys
  induction ys generalizing y with
  | nil =>
    intro j t A D hS hsp hl hj
    simp only [List.length_nil, Nat.add_zero] at hl hj
    have hcur0 : t.currentConfig = .ok c := currentConfig_ok.2 (by rw [hS.queue]; simp)
    have hnum := numSamples_of hS.reb hS.notReb
    have hnext : t.getNextConfig cfg = .ok (t, c, true) := by
      unfold Tuner.getNextConfig
      rw [inTuning_of hsp (.inl hS.tuning)]
      simp only [Bool.not_true, Bool.false_eq_true, if_false]
      rw [if_pos (by omega), hcur0]
      rfl
    obtain ⟨t1, m1, m2, m3, D1, m4, m5, m6⟩ := sample_one hS (by omega) (by omega) y
    have hcur : t1.currentConfig = .ok c := currentConfig_ok.2 (by rw [m2, hS.queue]; simp)
    have hstep : tunerIteration cfg fuel v t y = .ok t1 := by
      obtain ⟨f, rfl⟩ : ∃ f, fuel = f + 1 := ⟨fuel - 1, by omega⟩
      unfold tunerIteration Tuner.select
      rw [hnext]
      simp only [Outcome.bind]
      unfold selectLoop
      simp only [hv, Outcome.bind, m1]
    obtain ⟨w, w1, w2⟩ := m6 hl
    have hs := random_measure hst hnum m1
    rw [if_pos hl] at hs
    refine ⟨t1.bump cfg false, w, ?_, by rw [← w1]; exact m4, m3, hs, w2⟩
    simp only [tunerRun, hstep, Outcome.bind, hcur]
    rfl
  | cons z zs ih =>
    intro j t A D hS hsp hl hj
    simp only [List.length_cons] at hl hj
    have hcur0 : t.currentConfig = .ok c := currentConfig_ok.2 (by rw [hS.queue]; simp)
    have hnum := numSamples_of hS.reb hS.notReb
    have hnext : t.getNextConfig cfg = .ok (t, c, true) := by
      unfold Tuner.getNextConfig
      rw [inTuning_of hsp (.inl hS.tuning)]
      simp only [Bool.not_true, Bool.false_eq_true, if_false]
      rw [if_pos (by omega), hcur0]
      rfl
    obtain ⟨t1, m1, m2, m3, D1, m4, m5, m6⟩ := sample_one hS (by omega) (by omega) y
    have hcur : t1.currentConfig = .ok c := currentConfig_ok.2 (by rw [m2, hS.queue]; simp)
    have hstep : tunerIteration cfg fuel v t y = .ok t1 := by
      obtain ⟨f, rfl⟩ : ∃ f, fuel = f + 1 := ⟨fuel - 1, by omega⟩
      unfold tunerIteration Tuner.select
      rw [hnext]
      simp only [Outcome.bind]
      unfold selectLoop
      simp only [hv, Outcome.bind, m1]
    have hs := random_measure hst hnum m1
    rw [if_neg (by omega)] at hs
    have hD1 := m5 (by omega)
    subst hD1
    have hb : (t1.bump cfg false).searchSpace = t.searchSpace := m3
    obtain ⟨t', w, i1, i2, i3, i4, i5⟩ := ih z (j + 1) (t1.bump cfg false) (A ++ [y]) D1 m4 (by rw [hb]; exact hsp)
      (by simp; omega) (by omega)
    refine ⟨t', w, ?_, ?_, i3.trans hb, ?_, ?_⟩
    · have h1 : tunerRun cfg fuel v t (y :: z :: zs) =
          (tunerRun cfg fuel v (t1.bump cfg false) (z :: zs)).bind fun r => .ok (r.1, c :: r.2) := by
        conv_lhs => unfold tunerRun
        rw [hstep]
        simp only [Outcome.bind, hcur]
      rw [h1, i1]
      rfl
    · have h1 : j + 1 + zs.length + 1 = j + (z :: zs).length + 1 := by simp; omega
      rw [h1] at i2
      simpa using i2
    · rw [i4]
      show _ = _
      have : (t1.bump cfg false).strat = t1.strat := rfl
      rw [this, hs]
    · intro h; rw [i5 h]; simp

/-- Choosing the next configuration. -/
theorem random_advance (hst : cfg.strategies = [randomStrategy m draw]) (hdraw : ∀ k n, 0 < n → draw k n < n) (hmax : 0 < cfg.maxSamples)
    {v : C → Verdict} {p j : Nat} {t : Tuner RandomState C} {c : C} {L : List C} {A : List (Int × Bool)} {D : List (C × Int)}
    (hS : Sampling cfg p j t c L A D) (hsp : TwoCompatible v t.searchSpace) (hA : A.length = cfg.maxSamples) (hL : L ≠ [])
    (hm : t.strat.numEvidence ≠ m) :
    ∃ t1 c1 L1, t.getNextConfig cfg = .ok (t1, c1, true) ∧ t1.getNextConfig cfg = .ok (t1, c1, true) ∧
      Sampling cfg p j t1 c1 L1 [] D ∧ t1.searchSpace = t.searchSpace ∧ t1.strat = { t.strat with draws := t.strat.draws + 1 } ∧
      (swapBack L.reverse (draw t.strat.draws L.length)) = (c1 :: L1).reverse := by
  have hlen : 0 < L.reverse.length := by
    rw [List.length_reverse]; exact List.length_pos_iff.2 hL
  obtain ⟨h1, h2⟩ := swapBack_spec (hdraw t.strat.draws L.reverse.length hlen)
  rw [List.length_reverse] at h1 h2 hlen
  obtain ⟨q, hq⟩ : ∃ q, q = swapBack L.reverse (draw t.strat.draws L.length) := ⟨_, rfl⟩
  rw [← hq] at h1 h2
  obtain ⟨c1, L1, hcl⟩ : ∃ c1 L1, q.reverse = c1 :: L1 := by
    cases h : q.reverse with
    | nil =>
      have := h2.length_eq
      rw [← List.length_reverse, h] at this
      simp at this
      omega
    | cons a l => exact ⟨a, l, rfl⟩
  have hq2 : q = (c1 :: L1).reverse := by rw [← hcl, List.reverse_reverse]
  obtain ⟨t1, ht1⟩ : ∃ t1 : Tuner RandomState C, t1 = { t with
      samplesNot := [], samplesReb := [], queue := (c1 :: L1).reverse, strat := { t.strat with draws := t.strat.draws + 1 } } := ⟨_, rfl⟩
  have hcur1 : t1.currentConfig = .ok c1 := currentConfig_ok.2 (by rw [ht1]; simp)
  have hS1 : Sampling cfg p j t1 c1 L1 [] D := by
    subst ht1
    exact ⟨rfl, hS.tuning, hS.noForce, rfl, rfl, hS.phase, hS.iter, hS.ev⟩
  refine ⟨t1, c1, L1, ?_, ?_, hS1, by rw [ht1], by rw [ht1], by rw [← hq, hq2]⟩
  · unfold Tuner.getNextConfig
    rw [inTuning_of hsp (.inl hS.tuning)]
    simp only [Bool.not_true, Bool.false_eq_true, if_false]
    rw [if_neg (by rw [numSamples_of hS.reb hS.notReb]; omega)]
    have htune : t.tuneConfiguration cfg = .ok (t1, true) := by
      have hdrop : t.queue.dropLast = L.reverse := by rw [hS.queue]; simp
      have hne : t.queue.isEmpty = false := by rw [hS.queue]; simp
      have hne2 : L.reverse.isEmpty = false := by simpa using hL
      have hopt : runOptimize t.evidence cfg.strategies L.reverse t.strat =
          ((c1 :: L1).reverse, { t.strat with draws := t.strat.draws + 1 }) := by
        rw [hst]
        simp only [runOptimize, randomStrategy, RandomState.optimize, if_neg hm, hne2, List.length_reverse, ← hq, hq2]
        simp
      unfold Tuner.tuneConfiguration
      have hcond : ¬ ((t.iteration % cfg.tuningInterval = 0 ∧ (!t.isTuning) = true) ∨ t.forceRetune = true) := by
        rw [hS.tuning, hS.noForce]; simp
      simp only [hne, hdrop, hopt, hS.tuning, hS.noForce, ht1]
      simp
    rw [htune]
    simp only [Outcome.bind, hcur1]
  · unfold Tuner.getNextConfig
    rw [inTuning_of (v := v) (by rw [ht1]; exact hsp) (.inl hS1.tuning)]
    simp only [Bool.not_true, Bool.false_eq_true, if_false]
    rw [if_pos (by rw [numSamples_of hS1.reb hS1.notReb]; simpa using hmax), hcur1]
    rfl

/-- The begin of a phase. -/
theorem random_begin (hst : cfg.strategies = [randomStrategy m draw]) (hmax : 0 < cfg.maxSamples)
    {v : C → Verdict} {p : Nat} {t : Tuner RandomState C} {c0 : C} {S : List C}
    (h : IntervalBegin cfg (c0 :: S) p t) (hsp : TwoCompatible v (c0 :: S)) :
    ∃ t1, t.getNextConfig cfg = .ok (t1, c0, true) ∧ t1.getNextConfig cfg = .ok (t1, c0, true) ∧
      Sampling cfg p 0 t1 c0 S [] [] ∧ t1.searchSpace = c0 :: S ∧ t1.strat = { t.strat with numEvidence := 0 } := by
  have hsp' : TwoCompatible v t.searchSpace := by rw [h.space]; exact hsp
  obtain ⟨t1, ht1⟩ : ∃ t1 : Tuner RandomState C, t1 = { t with
      samplesNot := [], samplesReb := [], isTuning := true, forceRetune := false, iterationBaseline := 0, queue := (c0 :: S).reverse,
      strat := { t.strat with numEvidence := 0 } } := ⟨_, rfl⟩
  have hcur1 : t1.currentConfig = .ok c0 := currentConfig_ok.2 (by rw [ht1]; simp)
  have hS1 : Sampling cfg p 0 t1 c0 S [] [] := by
    subst ht1
    exact ⟨rfl, rfl, rfl, rfl, rfl, h.phase, h.iter, h.fresh⟩
  refine ⟨t1, ?_, ?_, hS1, by rw [ht1]; exact h.space, by rw [ht1]⟩
  · unfold Tuner.getNextConfig
    rw [inTuning_of hsp' (.inr h.iter)]
    simp only [Bool.not_true, Bool.false_eq_true, if_false]
    rw [if_neg (by have := h.samples; omega)]
    have htune : t.tuneConfiguration cfg = .ok (t1, true) := by
      have hne : t.queue.isEmpty = false := by simpa using h.queue
      have hopt : runReset t.iteration t.tuningPhase t.evidence cfg.strategies (c0 :: S).reverse t.strat =
          ((c0 :: S).reverse, { t.strat with numEvidence := 0 }) := by
        rw [hst]
        simp only [runReset, randomStrategy]
        simp
      unfold Tuner.tuneConfiguration
      simp only [hne, h.space, h.idle, h.iter, hopt, ht1]
      simp
    rw [htune]
    simp only [Outcome.bind, hcur1]
  · unfold Tuner.getNextConfig
    rw [inTuning_of (v := v) (by rw [ht1]; exact hsp') (.inl hS1.tuning)]
    simp only [Bool.not_true, Bool.false_eq_true, if_false]
    rw [if_pos (by rw [numSamples_of hS1.reb hS1.notReb]; simpa using hmax), hcur1]
    rfl

open Spec in
/-- `n` more configurations are chosen and sampled. -/
theorem random_rest (hst : cfg.strategies = [randomStrategy m draw]) (hdraw : ∀ k n, 0 < n → draw k n < n) (hmax : 0 < cfg.maxSamples)
    {v : C → Verdict} {p fuel : Nat} (hf : 0 < fuel) : ∀ (n j : Nat) (t : Tuner RandomState C) (c : C) (L : List C)
      (A : List (Int × Bool)) (D : List (C × Int)) (xs : List (Int × Bool)), Sampling cfg p j t c L A D → A.length = cfg.maxSamples →
      TwoCompatible v t.searchSpace → (∀ c ∈ L, v c = .applicable) → n ≤ L.length → t.strat.numEvidence + n ≤ m →
      xs.length = n * cfg.maxSamples → j + xs.length < cfg.tuningInterval →
      ∃ t' c' L' A' ws, tunerRun cfg fuel v t xs = .ok (t', (drawn draw t.strat.draws n L.reverse).flatMap (List.replicate cfg.maxSamples)) ∧
        Sampling cfg p (j + xs.length) t' c' L' A' (D ++ ws) ∧ A'.length = cfg.maxSamples ∧ L'.length + n = L.length ∧
        t'.searchSpace = t.searchSpace ∧
        t'.strat = { t.strat with numEvidence := t.strat.numEvidence + n, draws := t.strat.draws + n } ∧
        ws.map Prod.fst = drawn draw t.strat.draws n L.reverse ∧
        (cfg.smooth = none → ws.map Prod.snd = (List.range n).map fun i => chunkEstimate cfg (block cfg.maxSamples i xs)) := by
  intro n
  induction n with
  | zero =>
    intro j t c L A D xs hS hA _ _ _ _ hx _
    have : xs = [] := by
      apply List.length_eq_zero_iff.1
      simpa using hx
    subst this
    exact ⟨t, c, L, A, [], rfl, by simpa using hS, hA, rfl, rfl, rfl, rfl, fun _ => rfl⟩
  | succ n ih =>
    intro j t c L A D xs hS hA hsp hv hn hm hx hj
    have hLne : L ≠ [] := by rintro rfl; simp at hn
    obtain ⟨t1, c1, L1, a1, a2, a3, a4, a5, a6⟩ := random_advance hst hdraw hmax hS hsp hA hLne (by omega)
    have hlen : 0 < L.reverse.length := by rw [List.length_reverse]; omega
    have hperm := (swapBack_spec (hdraw t.strat.draws L.reverse.length hlen)).2
    rw [List.length_reverse, a6] at hperm
    have hpermL : (c1 :: L1).Perm L := ((List.reverse_perm _).symm.trans hperm).trans (List.reverse_perm _)
    have hvc : v c1 = .applicable := hv c1 (hpermL.mem_iff.1 (by simp))
    have hx' : xs.length = n * cfg.maxSamples + cfg.maxSamples := by rw [hx]; exact Nat.succ_mul _ _
    obtain ⟨x, ys, zs, hxyz, hys⟩ : ∃ x ys zs, xs = (x :: ys) ++ zs ∧ (x :: ys).length = cfg.maxSamples := by
      have h1 : (xs.take cfg.maxSamples).length = cfg.maxSamples := by rw [List.length_take]; omega
      cases h : xs.take cfg.maxSamples with
      | nil => rw [h] at h1; simp at h1; omega
      | cons x ys =>
        refine ⟨x, ys, xs.drop cfg.maxSamples, ?_, by rw [← h]; exact h1⟩
        rw [← h, List.take_append_drop]
    have hlen2 : xs.length = cfg.maxSamples + zs.length := by rw [hxyz, List.length_append, hys]
    have hys' : ys.length + 1 = cfg.maxSamples := by simpa using hys
    obtain ⟨t2, w, b1, b2, b3, b4, b5⟩ := random_samples hst hvc hf x ys j t1 [] D a3 (by rw [a4]; exact hsp) (by simp; omega) (by omega)
    obtain ⟨t3, c3, L3, A3, ws, d1, d2, d3, d4, d5, d6, d7, d8⟩ := ih (j + ys.length + 1) t2 c1 L1 ([] ++ x :: ys) (D ++ [(c1, w)]) zs b2
      (by simpa using hys) (by rw [b3, a4]; exact hsp) (fun c hc => hv c (hpermL.mem_iff.1 (by simp [hc])))
      (by have := hpermL.length_eq; simp at this; omega) (by rw [b4, a5]; simp only; omega) (by omega) (by omega)
    have hdr2 : t2.strat.draws = t.strat.draws + 1 := by rw [b4, a5]
    have hdrawn : drawn draw t.strat.draws (n + 1) L.reverse = c1 :: drawn draw t2.strat.draws n L1.reverse := by
      simp only [drawn, List.length_reverse]
      rw [a6, hdr2]
      simp
    refine ⟨t3, c3, L3, A3, (c1, w) :: ws, ?_, ?_, d3, ?_, ?_, ?_, ?_, ?_⟩
    · have r1 : tunerRun cfg fuel v t (x :: ys) = .ok (t2, List.replicate cfg.maxSamples c1) := by
        rw [run_of_next a1 a2, b1, hys']
      rw [hdrawn, hxyz, List.flatMap_cons]
      exact tunerRun_append r1 d1
    · have e : j + xs.length = j + ys.length + 1 + zs.length := by omega
      rw [e]
      simpa using d2
    · have := hpermL.length_eq; simp at this; omega
    · rw [d5, b3, a4]
    · rw [d6, b4, a5]
      simp only [RandomState.mk.injEq, and_true]
      omega
    · rw [hdrawn, List.map_cons, d7]
    · intro hs
      have h6 := d8 hs
      have htk : xs.take cfg.maxSamples = x :: ys := by
        rw [hxyz, List.take_append_of_le_length (by simp; omega)]
        rw [List.take_of_length_le (by simp; omega)]
      have hdr : xs.drop cfg.maxSamples = zs := by
        rw [hxyz, List.drop_append_of_le_length (by simp; omega), List.drop_of_length_le (by simp; omega), List.nil_append]
      rw [List.map_cons, h6, List.range_succ_eq_map, List.map_cons, List.map_map]
      congr 1
      · rw [b5 hs]
        simp [block, htk]
      · apply List.map_congr_left
        intro i _
        simp only [Function.comp]
        congr 1
        unfold block
        rw [Nat.succ_mul, Nat.add_comm, ← List.drop_drop, hdr]

open Spec in
/-- The configurations of a phase: `n` of them, the first one of the search space among them. -/
theorem random_phase (hst : cfg.strategies = [randomStrategy m draw]) (hdraw : ∀ k n, 0 < n → draw k n < n) (hmax : 0 < cfg.maxSamples)
    {v : C → Verdict} {p fuel n : Nat} (hf : 0 < fuel) {c0 : C} {S : List C} {t : Tuner RandomState C} (h : IntervalBegin cfg (c0 :: S) p t)
    (hv : ∀ c ∈ c0 :: S, v c = .applicable) (hsp : TwoCompatible v (c0 :: S)) (hn : n ≤ S.length) (hm : n + 1 ≤ m) {xs : List (Int × Bool)}
    (hxs : xs.length = (n + 1) * cfg.maxSamples) (hj : xs.length < cfg.tuningInterval) :
    ∃ t' c' L' A' ws, tunerRun cfg fuel v t xs =
          .ok (t', (c0 :: drawn draw t.strat.draws n S.reverse).flatMap (List.replicate cfg.maxSamples)) ∧
        Sampling cfg p xs.length t' c' L' A' ws ∧ A'.length = cfg.maxSamples ∧ L'.length + n = S.length ∧
        t'.searchSpace = c0 :: S ∧
        t'.strat = { t.strat with numEvidence := n + 1, draws := t.strat.draws + n } ∧
        ws.map Prod.fst = c0 :: drawn draw t.strat.draws n S.reverse ∧
        (cfg.smooth = none → ws.map Prod.snd = (List.range (n + 1)).map fun i => chunkEstimate cfg (block cfg.maxSamples i xs)) := by
  obtain ⟨t1, a1, a2, a3, a4, a5⟩ := random_begin hst hmax h hsp
  have hx' : xs.length = n * cfg.maxSamples + cfg.maxSamples := by rw [hxs]; exact Nat.succ_mul _ _
  obtain ⟨x, ys, zs, hxyz, hys⟩ : ∃ x ys zs, xs = (x :: ys) ++ zs ∧ (x :: ys).length = cfg.maxSamples := by
    have h1 : (xs.take cfg.maxSamples).length = cfg.maxSamples := by rw [List.length_take]; omega
    cases h : xs.take cfg.maxSamples with
    | nil => rw [h] at h1; simp at h1; omega
    | cons x ys =>
      refine ⟨x, ys, xs.drop cfg.maxSamples, ?_, by rw [← h]; exact h1⟩
      rw [← h, List.take_append_drop]
  have hlen2 : xs.length = cfg.maxSamples + zs.length := by rw [hxyz, List.length_append, hys]
  have hys' : ys.length + 1 = cfg.maxSamples := by simpa using hys
  obtain ⟨t2, w, b1, b2, b3, b4, b5⟩ := random_samples hst (hv c0 (by simp)) hf x ys 0 t1 [] [] a3 (by rw [a4]; exact hsp) (by simp; omega) (by omega)
  obtain ⟨t3, c3, L3, A3, ws, d1, d2, d3, d4, d5, d6, d7, d8⟩ := random_rest hst hdraw hmax hf n _ t2 c0 S _ _ zs b2
    (by simpa using hys) (by rw [b3, a4]; exact hsp) (fun c hc => hv c (by simp [hc])) hn (by rw [b4, a5]; simp only; omega) (by omega) (by omega)
  have hdr2 : t2.strat.draws = t.strat.draws := by rw [b4, a5]
  rw [hdr2] at d1 d7
  refine ⟨t3, c3, L3, A3, (c0, w) :: ws, ?_, ?_, d3, d4, ?_, ?_, by rw [List.map_cons, d7], ?_⟩
  · have r1 : tunerRun cfg fuel v t (x :: ys) = .ok (t2, List.replicate cfg.maxSamples c0) := by
      rw [run_of_next a1 a2, b1, hys']
    rw [hxyz, List.flatMap_cons]
    exact tunerRun_append r1 d1
  · have e : xs.length = 0 + ys.length + 1 + zs.length := by omega
    rw [e]
    simpa using d2
  · rw [d5, b3, a4]
  · rw [d6, b4, a5]
    simp only [RandomState.mk.injEq, and_true]
    omega
  · intro hs
    have h6 := d8 hs
    have htk : xs.take cfg.maxSamples = x :: ys := by
      rw [hxyz, List.take_append_of_le_length (by simp; omega)]
      rw [List.take_of_length_le (by simp; omega)]
    have hdr : xs.drop cfg.maxSamples = zs := by
      rw [hxyz, List.drop_append_of_le_length (by simp; omega), List.drop_of_length_le (by simp; omega), List.nil_append]
    rw [List.map_cons, h6, List.range_succ_eq_map, List.map_cons, List.map_map]
    congr 1
    · rw [b5 hs]
      simp [block, htk]
    · apply List.map_congr_left
      intro i _
      simp only [Function.comp]
      congr 1
      unfold block
      rw [Nat.succ_mul, Nat.add_comm, ← List.drop_drop, hdr]

open Spec in
/-- The end of a phase, by `runOptimize` leaving nothing: the rest of the interval uses the fastest. -/
theorem random_end {v : C → Verdict} {p fuel n : Nat} (hf : 0 < fuel) (hmax : 0 < cfg.maxSamples) (hsm : cfg.smooth = none)
    {t' : Tuner RandomState C} {c' : C} {L' T : List C} {A' : List (Int × Bool)} {ws : List (C × Int)} {xs : List (Int × Bool)}
    (hS : Sampling cfg p (n * cfg.maxSamples) t' c' L' A' ws) (hA : A'.length = cfg.maxSamples) (hn : 0 < n)
    (hsp : TwoCompatible v t'.searchSpace) {s : RandomState}
    (hwipe : runOptimize t'.evidence cfg.strategies L'.reverse t'.strat = ([], s))
    (hT : ws.map Prod.fst = T) (hTn : T.Nodup) (hTl : T.length = n) (hTv : ∀ c ∈ T, v c = .applicable)
    (hest : ws.map Prod.snd = (List.range n).map fun i => chunkEstimate cfg (block cfg.maxSamples i xs))
    (hval : ∀ i < n, chunkEstimate cfg (block cfg.maxSamples i xs) < longMax) :
    ∃ best, Fastest T (fun i => chunkEstimate cfg (block cfg.maxSamples i xs)) best ∧
      ∃ t2, Settled cfg v p (n * cfg.maxSamples) t2 best ws ∧ t2.searchSpace = t'.searchSpace ∧ t2.strat = s ∧
        ∀ x, tunerIteration cfg fuel v t' x = .ok t2 := by
  have hwl : ws.length = n := by rw [← hTl, ← hT, List.length_map]
  have h6 : ∀ i (hi : i < ws.length), ws[i].2 = chunkEstimate cfg (block cfg.maxSamples i xs) := by
    intro i hi
    have h2 : (ws.map Prod.snd)[i]'(by simpa using hi) = ws[i].2 := by simp
    rw [← h2]
    simp only [hest, List.getElem_map, List.getElem_range]
  obtain ⟨d, hd, hmin, t2, e1, e2, e3, e4⟩ := phase_end_wiped hS hA hwipe hsp (by rw [hT]; exact hTn)
    (by rintro rfl; simp at hwl; omega)
    (by
      intro d hd
      obtain ⟨i, hi, rfl⟩ := List.mem_iff_getElem.1 hd
      rw [h6 i hi]
      exact hval i (by omega))
    (by
      intro d hd
      exact hTv _ (by rw [← hT]; exact List.mem_map.2 ⟨d, hd, rfl⟩)) hf
  obtain ⟨i, hi, hdi⟩ := List.mem_iff_getElem.1 hd
  refine ⟨d.1, ⟨i, ?_, ?_⟩, t2, e1, e2, e3, e4⟩
  · rw [← hT, List.getElem?_map, List.getElem?_eq_getElem hi, hdi]; rfl
  · intro k hk
    have := hmin ws[k] (List.getElem_mem _)
    rw [← hdi, h6 i hi, h6 k (by omega)] at this
    exact this

omit [DecidableEq C] in
theorem subperm_nodup {l l' : List C} (h : l.Subperm l') (hn : l'.Nodup) : l.Nodup := by
  obtain ⟨m, h1, h2⟩ := h
  exact h1.nodup_iff.1 (h2.nodup hn)

open Spec in
/-- One whole tuning interval. -/
theorem random_interval {n : Nat} (hst : cfg.strategies = [randomStrategy (n + 1) draw]) (hdraw : ∀ k n, 0 < n → draw k n < n) (hmax : 0 < cfg.maxSamples)
    (hsm : cfg.smooth = none) {v : C → Verdict} {p fuel : Nat} (hf : 0 < fuel) {c0 : C} {S : List C} {t : Tuner RandomState C}
    (h : IntervalBegin cfg (c0 :: S) p t) (hv : ∀ c ∈ c0 :: S, v c = .applicable) (hsp : TwoCompatible v (c0 :: S)) (hnd : (c0 :: S).Nodup)
    (hn : n ≤ S.length) {xs : List (Int × Bool)} (hlen : xs.length = cfg.tuningInterval) (hfit : (n + 1) * cfg.maxSamples < cfg.tuningInterval)
    (hval : ∀ i < n + 1, chunkEstimate cfg (block cfg.maxSamples i xs) < longMax) :
    ∃ t' best, tunerRun cfg fuel v t xs = .ok (t', (c0 :: drawn draw t.strat.draws n S.reverse).flatMap (List.replicate cfg.maxSamples) ++
        List.replicate (cfg.tuningInterval - (n + 1) * cfg.maxSamples) best) ∧
      Fastest (c0 :: drawn draw t.strat.draws n S.reverse) (fun i => chunkEstimate cfg (block cfg.maxSamples i xs)) best ∧
      IntervalBegin cfg (c0 :: S) (p + 1) t' ∧ t'.strat = { t.strat with numEvidence := n + 1, draws := t.strat.draws + n } := by
  set N := (n + 1) * cfg.maxSamples with hN
  have hxl : (xs.take N).length = N := by rw [List.length_take]; omega
  obtain ⟨t1, c1, L1, A1, ws, a1, a2, a3, a4, a5, a6, a7, a8⟩ := random_phase hst hdraw hmax hf h hv hsp hn (le_refl _) (xs := xs.take N) (by omega) (by omega)
  rw [hxl] at a2
  obtain ⟨b1, b2⟩ := drawn_spec hdraw n t.strat.draws S.reverse (by simpa using hn)
  have hsub : (c0 :: drawn draw t.strat.draws n S.reverse).Subperm (c0 :: S) :=
    (List.subperm_cons _).2 (b2.trans (List.reverse_perm _).subperm)
  have hchunk : ∀ i < n + 1, block cfg.maxSamples i (xs.take N) = block cfg.maxSamples i xs := by
    intro i hi
    have h1 : (i + 1) * cfg.maxSamples ≤ N := Nat.mul_le_mul_right _ hi
    have e : (i + 1) * cfg.maxSamples = i * cfg.maxSamples + cfg.maxSamples := Nat.succ_mul _ _
    unfold block
    rw [List.drop_take, List.take_take]
    congr 1
    omega
  have hwipe : runOptimize t1.evidence cfg.strategies L1.reverse t1.strat = ([], t1.strat) := by
    rw [hst]
    simp [runOptimize, randomStrategy, RandomState.optimize, a6]
  obtain ⟨best, e1, t2, e2, e3, e4, e5⟩ := random_end (fuel := fuel) hf hmax hsm (n := n + 1) (xs := xs) a2 a3 (by omega)
    (by rw [a5]; exact hsp) hwipe a7 (subperm_nodup hsub hnd) (by simp [b1]) (fun c hc => hv c (hsub.subset hc))
    (by
      rw [a8 hsm]
      apply List.map_congr_left
      intro i hi
      rw [hchunk i (by simpa using hi)]) hval
  obtain ⟨y, ys, hy⟩ : ∃ y ys, xs.drop N = y :: ys := by
    have : N < xs.length := by omega
    exact ⟨xs[N], _, List.drop_eq_getElem_cons this⟩
  have hyl : ys.length + 1 = cfg.tuningInterval - N := by
    have : (xs.drop N).length = ys.length + 1 := by rw [hy]; rfl
    rw [List.length_drop] at this
    omega
  obtain ⟨t3, f1, f2, f3⟩ := settled_end hf y ys N t1 t2 e5 e2 (by omega)
  refine ⟨t3, best, ?_, e1, ?_, by rw [f3, e4, a6]⟩
  · have := tunerRun_append a1 f1
    rw [← hy, List.take_append_drop, hyl] at this
    exact this
  · rw [e3, a5] at f2
    exact f2

open Spec in
/-- Histories of tuning intervals. -/
theorem random_intervals {n : Nat} (hst : cfg.strategies = [randomStrategy (n + 1) draw]) (hdraw : ∀ k n, 0 < n → draw k n < n) (hmax : 0 < cfg.maxSamples)
    (hsm : cfg.smooth = none) {v : C → Verdict} {fuel : Nat} (hf : 0 < fuel) {c0 : C} {S : List C}
    (hv : ∀ c ∈ c0 :: S, v c = .applicable) (hsp : TwoCompatible v (c0 :: S)) (hnd : (c0 :: S).Nodup)
    (hn : n ≤ S.length) (hfit : (n + 1) * cfg.maxSamples < cfg.tuningInterval) :
    ∀ (xss : List (List (Int × Bool))) (p : Nat) (t : Tuner RandomState C), IntervalBegin cfg (c0 :: S) p t →
      (∀ xs ∈ xss, xs.length = cfg.tuningInterval) →
      (∀ (k : Nat) xs, xss[k]? = some xs → ∀ i < n + 1, chunkEstimate cfg (block cfg.maxSamples i xs) < longMax) →
      ∃ (t' : Tuner RandomState C) (uss : List (List C)), tunerRun cfg fuel v t xss.flatten = .ok (t', uss.flatten) ∧ uss.length = xss.length ∧
        t'.strat.undefined = t.strat.undefined ∧
        ∀ (k : Nat) xs used, xss[k]? = some xs → uss[k]? = some used → used.length = cfg.tuningInterval ∧
          ∃ best, SampledThen (c0 :: drawn draw (t.strat.draws + k * n) n S.reverse) cfg.maxSamples best used ∧
            Fastest (c0 :: drawn draw (t.strat.draws + k * n) n S.reverse) (fun i => chunkEstimate cfg (block cfg.maxSamples i xs)) best := by
  intro xss
  induction xss with
  | nil => intro p t _ _ _; exact ⟨t, [], rfl, rfl, rfl, by simp⟩
  | cons xs xss ih =>
    intro p t h hl hval
    obtain ⟨t1, best, a1, a2, a3, a4⟩ := random_interval hst hdraw hmax hsm hf h hv hsp hnd hn (hl xs (by simp)) hfit (hval 0 xs rfl)
    obtain ⟨t2, uss, r1, r2, r3, r4⟩ := ih (p + 1) t1 a3 (fun y hy => hl y (by simp [hy])) (fun k ys hk => hval (k + 1) ys (by simpa using hk))
    have hd : t1.strat.draws = t.strat.draws + n := congrArg RandomState.draws a4
    have hu : t1.strat.undefined = t.strat.undefined := by have := congrArg RandomState.undefined a4; exact this
    have hbl := (drawn_spec hdraw n t.strat.draws S.reverse (by simpa using hn)).1
    set U := (c0 :: drawn draw t.strat.draws n S.reverse).flatMap (List.replicate cfg.maxSamples) ++
        List.replicate (cfg.tuningInterval - (n + 1) * cfg.maxSamples) best with hU
    have hul : U.length = cfg.tuningInterval := by
      have : ((c0 :: drawn draw t.strat.draws n S.reverse).flatMap (List.replicate cfg.maxSamples)).length = (n + 1) * cfg.maxSamples := by
        have hgen : ∀ T : List C, (T.flatMap (List.replicate cfg.maxSamples)).length = T.length * cfg.maxSamples := by
          intro T; simp [List.length_flatMap]
        rw [hgen, List.length_cons, hbl]
      rw [hU, List.length_append, this, List.length_replicate]
      omega
    refine ⟨t2, U :: uss, ?_, by simp [r2], by rw [r3, hu], ?_⟩
    · rw [List.flatten_cons, List.flatten_cons]
      exact tunerRun_append a1 r1
    · intro k ys used h1 h2
      cases k with
      | zero =>
        simp only [List.getElem?_cons_zero, Option.some.injEq] at h1 h2
        subst h1; subst h2
        rw [Nat.zero_mul, Nat.add_zero]
        refine ⟨hul, best, ?_, a2⟩
        unfold SampledThen
        rw [hul, List.length_cons, hbl]
      | succ k =>
        simp only [List.getElem?_cons_succ] at h1 h2
        have := r4 k ys used h1 h2
        rw [hd] at this
        rwa [show t.strat.draws + n + k * n = t.strat.draws + (k + 1) * n by rw [Nat.succ_mul]; omega] at this

open Spec in
/-- If there are fewer configurations than are to be tested, the queue is empty when the next one is chosen. -/
theorem random_exhausted {c0 : C} {S : List C} (hst : cfg.strategies = [randomStrategy m draw]) (hdraw : ∀ k n, 0 < n → draw k n < n) (hmax : 0 < cfg.maxSamples)
    (hsm : cfg.smooth = none) {v : C → Verdict} {p fuel : Nat} (hf : 0 < fuel) {t : Tuner RandomState C}
    (h : IntervalBegin cfg (c0 :: S) p t) (hv : ∀ c ∈ c0 :: S, v c = .applicable) (hsp : TwoCompatible v (c0 :: S)) (hnd : (c0 :: S).Nodup)
    (hm : (c0 :: S).length < m) {xs : List (Int × Bool)} (hlen : xs.length = (c0 :: S).length * cfg.maxSamples) (hfit : xs.length < cfg.tuningInterval)
    (hval : ∀ i < (c0 :: S).length, chunkEstimate cfg (block cfg.maxSamples i xs) < longMax) (x : Int × Bool) :
    ∃ t' used, tunerRun cfg fuel v t (xs ++ [x]) = .ok (t', used) ∧ t'.strat.undefined = true := by
  simp only [List.length_cons] at hm hlen hval
  obtain ⟨t1, c1, L1, A1, ws, a1, a2, a3, a4, a5, a6, a7, a8⟩ := random_phase (n := S.length) hst hdraw hmax hf h hv hsp (le_refl _) (by omega) hlen (by omega)
  obtain ⟨b1, b2⟩ := drawn_spec hdraw S.length t.strat.draws S.reverse (by simp)
  have hsub : (c0 :: drawn draw t.strat.draws S.length S.reverse).Subperm (c0 :: S) :=
    (List.subperm_cons _).2 (b2.trans (List.reverse_perm _).subperm)
  have hL1 : L1 = [] := List.length_eq_zero_iff.1 (by omega)
  subst hL1
  rw [hlen] at a2
  have hwipe : runOptimize t1.evidence cfg.strategies ([] : List C).reverse t1.strat =
      ([], { t1.strat with draws := t1.strat.draws + 1, undefined := true }) := by
    rw [hst]
    have hne : ¬ (t1.strat.numEvidence = m) := by rw [a6]; simp only; omega
    simp [runOptimize, randomStrategy, RandomState.optimize, hne]
  obtain ⟨best, e1, t2, e2, e3, e4, e5⟩ := random_end (fuel := fuel) hf hmax hsm (n := S.length + 1) (xs := xs) a2 a3 (by omega)
    (by rw [a5]; exact hsp) hwipe a7 (subperm_nodup hsub hnd) (by simp [b1]) (fun c hc => hv c (hsub.subset hc)) (a8 hsm) hval
  have hcur : t2.currentConfig = .ok best := currentConfig_ok.2 (by rw [e2.queue]; rfl)
  have hlast : tunerRun cfg fuel v t1 [x] = .ok (t2.bump cfg false, [best]) := by
    simp only [tunerRun, e5 x, Outcome.bind, hcur]
  refine ⟨_, _, tunerRun_append a1 hlast, ?_⟩
  show t2.strat.undefined = true
  rw [e4]

end

section
variable {C : Type} [DecidableEq C]

omit [DecidableEq C] in
theorem drawn_congr {d d' : Nat → Nat → Nat} : ∀ (n k : Nat) (q : List C), (∀ j, k ≤ j → d j = d' j) → drawn d k n q = drawn d' k n q := by
  intro n
  induction n with
  | zero => intro k q _; rfl
  | succ n ih =>
    intro k q h
    simp only [drawn]
    rw [h k (le_refl k)]
    cases (swapBack q (d' k q.length)).getLast? with
    | none => rfl
    | some c => rw [ih (k + 1) _ (fun j hj => h j (by omega))]

/-- Every choice in every order is possible. -/
theorem drawn_all : ∀ (n k : Nat) (q T : List C), T.length = n → T.Subperm q →
    ∃ draw : Nat → Nat → Nat, (∀ k n, 0 < n → draw k n < n) ∧ drawn draw k n q = T := by
  intro n
  induction n with
  | zero =>
    intro k q T hT _
    have : T = [] := List.length_eq_zero_iff.1 hT
    subst this
    exact ⟨fun _ _ => 0, fun _ _ h => h, rfl⟩
  | succ n ih =>
    intro k q T hT hsub
    obtain ⟨c, T, rfl⟩ : ∃ c T', T = c :: T' := by
      cases T with
      | nil => simp at hT
      | cons c T => exact ⟨c, T, rfl⟩
    have hc : c ∈ q := hsub.subset (by simp)
    have hi : q.idxOf c < q.length := List.idxOf_lt_length_iff.2 hc
    obtain ⟨h1, h2⟩ := swapBack_spec hi
    rw [List.getElem?_eq_getElem hi, List.getElem_idxOf hi] at h1
    obtain ⟨ys, hys⟩ := List.getLast?_eq_some_iff.1 h1
    have hperm : (c :: ys).Perm q := by
      refine List.Perm.trans ?_ h2
      rw [hys]
      exact (List.perm_append_singleton _ _).symm
    have hsub' : T.Subperm ys := (List.subperm_cons c).1 (hsub.trans hperm.symm.subperm)
    obtain ⟨d, hd1, hd2⟩ := ih (k + 1) ys T (by simpa using hT) hsub'
    refine ⟨fun j m => if j = k then (if q.idxOf c < m then q.idxOf c else 0) else d j m, ?_, ?_⟩
    · intro j m hm
      simp only
      split_ifs with h3 h4
      · exact h4
      · exact hm
      · exact hd1 j m hm
    · simp only [drawn, if_true, if_pos hi, h1]
      rw [hys, List.dropLast_concat]
      congr 1
      rw [← hd2]
      apply drawn_congr
      intro j hj
      funext m
      rw [if_neg (by omega)]

end

end Verif
