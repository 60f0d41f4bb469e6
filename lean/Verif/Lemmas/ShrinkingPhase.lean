import Verif.Lemmas.RandomSearch
import Verif.Spec.Phases
/-! Tuning phases with strategies that only reorder the queue and remove configurations from it. -/
namespace Verif
open Spec

section
variable {σ C : Type} [DecidableEq C]

/-- What the strategies do: `Inv D s` holds in state `s` after the configurations in `D` were measured, `Good D L c L'` if the queue is made
`c :: L'` out of `L` after these, `Done D L` if the phase ends with `L` left; never more than `N` configurations are measured. `P` holds between the phases.
`Ph`: the phases this is about. -/
structure Shrinking (cfg : TunerCfg σ C) (S : List C) (N : Nat) (Ph : Nat → Prop) (P : σ → Prop) (Inv : List (C × Int) → σ → Prop)
    (Good : List (C × Int) → List C → C → List C → Prop) (Done : List (C × Int) → List C → Prop) : Prop where
  reset : ∀ it ph ev s, Ph ph → P s → ∃ c L s', runReset it ph ev cfg.strategies S.reverse s = ((c :: L).reverse, s') ∧ (c :: L).Subperm S ∧ Inv [] s' ∧ Good [] S c L
  measured : ∀ D s c it ph w, Inv D s → Inv (D ++ [(c, w)]) (cfg.strategies.foldl (fun s st => st.addEvidence s c ⟨it, ph, w⟩) s)
  next : ∀ D s L ev, D.length + L.length ≤ S.length → Inv D s → (∃ s', runOptimize ev cfg.strategies L.reverse s = ([], s') ∧ P s' ∧ Done D L) ∨
    ∃ c L' s', runOptimize ev cfg.strategies L.reverse s = ((c :: L').reverse, s') ∧ (c :: L').Subperm L ∧ Inv D s' ∧ Good D L c L' ∧ D.length < N

omit [DecidableEq C] in
theorem chosen_subperm {Good : List (C × Int) → List C → C → List C → Prop} {Done : List (C × Int) → List C → Prop} :
    ∀ {ws D : List (C × Int)} {L : List C}, Chosen Good Done D L ws → (ws.map Prod.fst).Subperm L
  | [], _, _, _ => List.nil_subperm
  | cw :: ws, D, L, h => by
    obtain ⟨L', h1, -, h2⟩ := h
    exact ((List.subperm_cons _).2 (chosen_subperm h2)).trans h1

variable {cfg : TunerCfg σ C}

/-- What a measurement does to the strategies. -/
theorem measure_strat (hsm : cfg.smooth = none) {t t' : Tuner σ C} {c : C} {x : Int × Bool} {n : Nat} (hc : t.currentConfig = .ok c)
    (hn : t.numSamples = n) (h : t.measure cfg true true x.1 x.2 = .ok t') :
    (n + 1 ≠ cfg.maxSamples → t'.strat = t.strat) ∧
    (n + 1 = cfg.maxSamples → t'.strat = cfg.strategies.foldl (fun s st => st.addEvidence s c ⟨t.iteration, t.tuningPhase,
      estimateRuntime cfg.rebuildFrequency cfg.selector (if x.2 then t.samplesReb ++ [x.1] else t.samplesReb)
        (if x.2 then t.samplesNot else t.samplesNot ++ [x.1])⟩) t.strat) := by
  unfold Tuner.measure at h
  rw [if_pos ⟨rfl, rfl⟩] at h
  unfold Tuner.addMeasurement at h
  rw [hc] at h
  simp only [Outcome.bind, hsm] at h
  obtain ⟨xt, xb⟩ := x
  cases xb
  · have e : ({ t with samplesNot := t.samplesNot ++ [xt] } : Tuner σ C).numSamples = n + 1 := by
      unfold Tuner.numSamples at hn ⊢
      simp; omega
    simp only [Bool.false_eq_true, if_false, e] at h
    by_cases h1 : t.numSamples ≥ cfg.maxSamples
    · rw [if_pos h1] at h; cases h
    · rw [if_neg h1] at h
      by_cases h2 : n + 1 = cfg.maxSamples
      · rw [if_pos h2] at h; cases h; exact ⟨fun hh => absurd h2 hh, fun _ => rfl⟩
      · rw [if_neg h2] at h; cases h; exact ⟨fun _ => rfl, fun hh => absurd hh h2⟩
  · have e : ({ t with samplesReb := t.samplesReb ++ [xt] } : Tuner σ C).numSamples = n + 1 := by
      unfold Tuner.numSamples at hn ⊢
      simp; omega
    simp only [if_true, e] at h
    by_cases h1 : t.numSamples ≥ cfg.maxSamples
    · rw [if_pos h1] at h; cases h
    · rw [if_neg h1] at h
      by_cases h2 : n + 1 = cfg.maxSamples
      · rw [if_pos h2] at h; cases h; exact ⟨fun hh => absurd h2 hh, fun _ => rfl⟩
      · rw [if_neg h2] at h; cases h; exact ⟨fun _ => rfl, fun hh => absurd hh h2⟩

variable {S : List C} {N : Nat} {Ph : Nat → Prop} {P : σ → Prop} {Inv : List (C × Int) → σ → Prop} {Good : List (C × Int) → List C → C → List C → Prop} {Done : List (C × Int) → List C → Prop}

/-- The samples of one configuration. -/
theorem shrink_samples (hH : Shrinking cfg S N Ph P Inv Good Done) (hsm : cfg.smooth = none) {v : C → Verdict} {c : C} {L : List C} {p fuel : Nat}
    (hv : v c = .applicable) (hf : 0 < fuel) : ∀ (y : Int × Bool) (ys : List (Int × Bool)) (j : Nat) (t : Tuner σ C) (A : List (Int × Bool))
      (D : List (C × Int)), Sampling cfg p j t c L A D → TwoCompatible v t.searchSpace → Inv D t.strat →
      A.length + ys.length + 1 = cfg.maxSamples → j + ys.length + 1 < cfg.tuningInterval →
      ∃ t', tunerRun cfg fuel v t (y :: ys) = .ok (t', List.replicate (ys.length + 1) c) ∧
        Sampling cfg p (j + ys.length + 1) t' c L (A ++ y :: ys) (D ++ [(c, chunkEstimate cfg (A ++ y :: ys))]) ∧ t'.searchSpace = t.searchSpace ∧
        Inv (D ++ [(c, chunkEstimate cfg (A ++ y :: ys))]) t'.strat := by
  intro y ys
  induction ys generalizing y with
  | nil =>
    intro j t A D hS hsp hI hl hj
    simp only [List.length_nil, Nat.add_zero] at hl hj
    have hcur0 : t.currentConfig = .ok c := currentConfig_ok.2 (by rw [hS.queue]; simp)
    have hnum := numSamples_of hS.reb hS.notReb
    have hnext : t.getNextConfig cfg = .ok (t, c, true) := by
      unfold Tuner.getNextConfig
      rw [inTuning_of hsp (.inl hS.tuning)]
      simp only [Bool.not_true, Bool.false_eq_true, if_false]
      rw [if_pos (by omega), hcur0]
      rfl
    obtain ⟨t1, m1, m2, m3, D1, m4, m5, m6⟩ := sample_one hS (by omega) (by omega) y
    have hcur : t1.currentConfig = .ok c := currentConfig_ok.2 (by rw [m2, hS.queue]; simp)
    have hstep : tunerIteration cfg fuel v t y = .ok t1 := by
      obtain ⟨f, rfl⟩ : ∃ f, fuel = f + 1 := ⟨fuel - 1, by omega⟩
      unfold tunerIteration Tuner.select
      rw [hnext]
      simp only [Outcome.bind]
      unfold selectLoop
      simp only [hv, Outcome.bind, m1]
    obtain ⟨w, w1, w2⟩ := m6 hl
    have hs := (measure_strat hsm hcur0 hnum m1).2 hl
    have hest : estimateRuntime cfg.rebuildFrequency cfg.selector (if y.2 then t.samplesReb ++ [y.1] else t.samplesReb)
        (if y.2 then t.samplesNot else t.samplesNot ++ [y.1]) = chunkEstimate cfg (A ++ [y]) := by
      unfold chunkEstimate
      rw [hS.reb, hS.notReb]
      obtain ⟨yt, yb⟩ := y
      cases yb <;> simp
    rw [hest] at hs
    rw [w2 hsm] at w1
    refine ⟨t1.bump cfg false, ?_, by rw [← w1]; exact m4, m3, ?_⟩
    · simp only [tunerRun, hstep, Outcome.bind, hcur]
      rfl
    · have h1 : (t1.bump cfg false).strat = t1.strat := rfl
      rw [h1, hs]
      exact hH.measured _ _ _ _ _ _ hI
  | cons z zs ih =>
    intro j t A D hS hsp hI hl hj
    simp only [List.length_cons] at hl hj
    have hcur0 : t.currentConfig = .ok c := currentConfig_ok.2 (by rw [hS.queue]; simp)
    have hnum := numSamples_of hS.reb hS.notReb
    have hnext : t.getNextConfig cfg = .ok (t, c, true) := by
      unfold Tuner.getNextConfig
      rw [inTuning_of hsp (.inl hS.tuning)]
      simp only [Bool.not_true, Bool.false_eq_true, if_false]
      rw [if_pos (by omega), hcur0]
      rfl
    obtain ⟨t1, m1, m2, m3, D1, m4, m5, m6⟩ := sample_one hS (by omega) (by omega) y
    have hcur : t1.currentConfig = .ok c := currentConfig_ok.2 (by rw [m2, hS.queue]; simp)
    have hstep : tunerIteration cfg fuel v t y = .ok t1 := by
      obtain ⟨f, rfl⟩ : ∃ f, fuel = f + 1 := ⟨fuel - 1, by omega⟩
      unfold tunerIteration Tuner.select
      rw [hnext]
      simp only [Outcome.bind]
      unfold selectLoop
      simp only [hv, Outcome.bind, m1]
    have hs := (measure_strat hsm hcur0 hnum m1).1 (by omega)
    have hD1 := m5 (by omega)
    subst hD1
    have hb : (t1.bump cfg false).searchSpace = t.searchSpace := m3
    have hI1 : Inv D1 (t1.bump cfg false).strat := by
      have h1 : (t1.bump cfg false).strat = t1.strat := rfl
      rw [h1, hs]; exact hI
    obtain ⟨t', i1, i2, i3, i4⟩ := ih z (j + 1) (t1.bump cfg false) (A ++ [y]) D1 m4 (by rw [hb]; exact hsp) hI1
      (by simp; omega) (by omega)
    refine ⟨t', ?_, ?_, i3.trans hb, by simpa using i4⟩
    · have h1 : tunerRun cfg fuel v t (y :: z :: zs) =
          (tunerRun cfg fuel v (t1.bump cfg false) (z :: zs)).bind fun r => .ok (r.1, c :: r.2) := by
        conv_lhs => unfold tunerRun
        rw [hstep]
        simp only [Outcome.bind, hcur]
      rw [h1, i1]
      rfl
    · have h1 : j + 1 + zs.length + 1 = j + (z :: zs).length + 1 := by simp; omega
      rw [h1] at i2
      simpa using i2

/-- Choosing the next configuration. -/
theorem shrink_advance (hmax : 0 < cfg.maxSamples)
    {v : C → Verdict} {p j : Nat} {t : Tuner σ C} {c c1 : C} {L L1 : List C} {s : σ} {A : List (Int × Bool)} {D : List (C × Int)}
    (hS : Sampling cfg p j t c L A D) (hsp : TwoCompatible v t.searchSpace) (hA : A.length = cfg.maxSamples)
    (hopt : runOptimize t.evidence cfg.strategies L.reverse t.strat = ((c1 :: L1).reverse, s)) :
    ∃ t1, t.getNextConfig cfg = .ok (t1, c1, true) ∧ t1.getNextConfig cfg = .ok (t1, c1, true) ∧
      Sampling cfg p j t1 c1 L1 [] D ∧ t1.searchSpace = t.searchSpace ∧ t1.strat = s := by
  obtain ⟨t1, ht1⟩ : ∃ t1 : Tuner σ C, t1 = { t with
      samplesNot := [], samplesReb := [], queue := (c1 :: L1).reverse, strat := s } := ⟨_, rfl⟩
  have hcur1 : t1.currentConfig = .ok c1 := currentConfig_ok.2 (by rw [ht1]; simp)
  have hS1 : Sampling cfg p j t1 c1 L1 [] D := by
    subst ht1
    exact ⟨rfl, hS.tuning, hS.noForce, rfl, rfl, hS.phase, hS.iter, hS.ev⟩
  refine ⟨t1, ?_, ?_, hS1, by rw [ht1], by rw [ht1]⟩
  · unfold Tuner.getNextConfig
    rw [inTuning_of hsp (.inl hS.tuning)]
    simp only [Bool.not_true, Bool.false_eq_true, if_false]
    rw [if_neg (by rw [numSamples_of hS.reb hS.notReb]; omega)]
    have htune : t.tuneConfiguration cfg = .ok (t1, true) := by
      have hdrop : t.queue.dropLast = L.reverse := by rw [hS.queue]; simp
      have hne : t.queue.isEmpty = false := by rw [hS.queue]; simp
      unfold Tuner.tuneConfiguration
      simp only [hne, hdrop, hopt, hS.tuning, hS.noForce, ht1]
      simp
    rw [htune]
    simp only [Outcome.bind, hcur1]
  · unfold Tuner.getNextConfig
    rw [inTuning_of (v := v) (by rw [ht1]; exact hsp) (.inl hS1.tuning)]
    simp only [Bool.not_true, Bool.false_eq_true, if_false]
    rw [if_pos (by rw [numSamples_of hS1.reb hS1.notReb]; simpa using hmax), hcur1]
    rfl

/-- The begin of a phase. -/
theorem shrink_begin (hmax : 0 < cfg.maxSamples)
    {v : C → Verdict} {p : Nat} {t : Tuner σ C} {c0 : C} {L : List C} {s : σ}
    (h : IntervalBegin cfg S p t) (hsp : TwoCompatible v S)
    (hopt : runReset t.iteration t.tuningPhase t.evidence cfg.strategies S.reverse t.strat = ((c0 :: L).reverse, s)) :
    ∃ t1, t.getNextConfig cfg = .ok (t1, c0, true) ∧ t1.getNextConfig cfg = .ok (t1, c0, true) ∧
      Sampling cfg p 0 t1 c0 L [] [] ∧ t1.searchSpace = S ∧ t1.strat = s := by
  have hsp' : TwoCompatible v t.searchSpace := by rw [h.space]; exact hsp
  obtain ⟨t1, ht1⟩ : ∃ t1 : Tuner σ C, t1 = { t with
      samplesNot := [], samplesReb := [], isTuning := true, forceRetune := false, iterationBaseline := 0, queue := (c0 :: L).reverse,
      strat := s } := ⟨_, rfl⟩
  have hcur1 : t1.currentConfig = .ok c0 := currentConfig_ok.2 (by rw [ht1]; simp)
  have hS1 : Sampling cfg p 0 t1 c0 L [] [] := by
    subst ht1
    exact ⟨rfl, rfl, rfl, rfl, rfl, h.phase, h.iter, h.fresh⟩
  refine ⟨t1, ?_, ?_, hS1, by rw [ht1]; exact h.space, by rw [ht1]⟩
  · unfold Tuner.getNextConfig
    rw [inTuning_of hsp' (.inr h.iter)]
    simp only [Bool.not_true, Bool.false_eq_true, if_false]
    rw [if_neg (by have := h.samples; omega)]
    have htune : t.tuneConfiguration cfg = .ok (t1, true) := by
      have hne : t.queue.isEmpty = false := by simpa using h.queue
      unfold Tuner.tuneConfiguration
      simp only [hne, h.space, h.idle, h.iter, hopt, ht1]
      simp
    rw [htune]
    simp only [Outcome.bind, hcur1]
  · unfold Tuner.getNextConfig
    rw [inTuning_of (v := v) (by rw [ht1]; exact hsp') (.inl hS1.tuning)]
    simp only [Bool.not_true, Bool.false_eq_true, if_false]
    rw [if_pos (by rw [numSamples_of hS1.reb hS1.notReb]; simpa using hmax), hcur1]
    rfl

theorem split_chunk {xs : List (Int × Bool)} {n : Nat} (hn : 0 < n) (h : n ≤ xs.length) :
    ∃ x ys zs, xs = (x :: ys) ++ zs ∧ ys.length + 1 = n := by
  have h1 : (xs.take n).length = n := by rw [List.length_take]; omega
  cases hh : xs.take n with
  | nil => rw [hh] at h1; simp at h1; omega
  | cons x ys =>
    refine ⟨x, ys, xs.drop n, ?_, by rw [hh] at h1; simpa using h1⟩
    rw [← hh, List.take_append_drop]

theorem block_zero {x : Int × Bool} {ys zs : List (Int × Bool)} {n : Nat} (h : ys.length + 1 = n) : block n 0 ((x :: ys) ++ zs) = x :: ys := by
  unfold block
  rw [Nat.zero_mul, List.drop_zero, List.take_append_of_le_length (by simp; omega), List.take_of_length_le (by simp; omega)]

theorem block_succ {x : Int × Bool} {ys zs : List (Int × Bool)} {n i : Nat} (h : ys.length + 1 = n) :
    block n (i + 1) ((x :: ys) ++ zs) = block n i zs := by
  unfold block
  have hd : ((x :: ys) ++ zs).drop n = zs := by
    rw [List.drop_append_of_le_length (by simp; omega), List.drop_of_length_le (by simp; omega), List.nil_append]
  rw [Nat.succ_mul, Nat.add_comm, ← List.drop_drop, hd]

/-- The rest of an interval after a configuration has been measured. -/
theorem shrink_rest (hH : Shrinking cfg S N Ph P Inv Good Done) (hsm : cfg.smooth = none) (hmax : 0 < cfg.maxSamples)
    {v : C → Verdict} {p fuel : Nat} (hf : 0 < fuel) : ∀ (len j : Nat) (t : Tuner σ C) (c : C) (L : List C)
      (A : List (Int × Bool)) (D : List (C × Int)) (xs : List (Int × Bool)), L.length ≤ len → Sampling cfg p j t c L A D → A.length = cfg.maxSamples →
      TwoCompatible v t.searchSpace → (∀ c ∈ L, v c = .applicable) → (∀ d ∈ D, v d.1 = .applicable ∧ d.2 < longMax) → D ≠ [] →
      (D.map Prod.fst ++ L).Nodup → Inv D t.strat → D.length ≤ N → D.length + L.length ≤ S.length → j + xs.length = cfg.tuningInterval →
      j + min L.length (N - D.length) * cfg.maxSamples < cfg.tuningInterval →
      (∀ i < min L.length (N - D.length), chunkEstimate cfg (block cfg.maxSamples i xs) < longMax) →
      ∃ t' ws best, tunerRun cfg fuel v t xs = .ok (t', (ws.map Prod.fst).flatMap (List.replicate cfg.maxSamples) ++
            List.replicate (xs.length - ws.length * cfg.maxSamples) best) ∧
        Chosen Good Done D L ws ∧ D.length + ws.length ≤ N ∧
        ws.map Prod.snd = ((List.range ws.length).map fun i => chunkEstimate cfg (block cfg.maxSamples i xs)) ∧
        (∃ d ∈ D ++ ws, d.1 = best ∧ ∀ d' ∈ D ++ ws, d.2 ≤ d'.2) ∧ IntervalBegin cfg t.searchSpace (p + 1) t' ∧ P t'.strat := by
  intro len
  induction len with
  | zero =>
    intro j t c L A D xs hlen hS hA hsp hv hD hDne hnd hI hDN hDL hj hfit hval
    have hL : L = [] := List.length_eq_zero_iff.1 (by omega)
    subst hL
    rcases hH.next D t.strat [] t.evidence hDL hI with ⟨s', h1, hP, hdone⟩ | ⟨c1, L1, s', h1, h2, -⟩
    swap
    · have := h2.length_le; simp at this
    obtain ⟨d, hd, hmin, t1, e1, e2, e3, e4⟩ := phase_end_wiped hS hA h1 hsp (by simpa using hnd) hDne (fun d hd => (hD d hd).2)
      (fun d hd => (hD d hd).1) hf
    obtain ⟨y, ys, hxs⟩ : ∃ y ys, xs = y :: ys := by
      cases xs with
      | nil => simp at hj; omega
      | cons y ys => exact ⟨y, ys, rfl⟩
    subst hxs
    simp only [List.length_cons] at hj
    obtain ⟨t', f1, f2, f3⟩ := settled_end hf y ys j t t1 e4 e1 (by omega)
    refine ⟨t', [], d.1, by simpa using f1, hdone, by simpa using hDN, rfl, ⟨d, by simpa using hd, rfl, by simpa using hmin⟩, by rw [e2] at f2; exact f2, by rw [f3, e3]; exact hP⟩
  | succ len ih =>
    intro j t c L A D xs hlen hS hA hsp hv hD hDne hnd hI hDN hDL hj hfit hval
    rcases hH.next D t.strat L t.evidence hDL hI with ⟨s', h1, hP, hdone⟩ | ⟨c1, L1, s', h1, h2, h3, h4, h5⟩
    · obtain ⟨d, hd, hmin, t1, e1, e2, e3, e4⟩ := phase_end_wiped hS hA h1 hsp (List.Nodup.of_append_left hnd) hDne (fun d hd => (hD d hd).2)
        (fun d hd => (hD d hd).1) hf
      obtain ⟨y, ys, hxs⟩ : ∃ y ys, xs = y :: ys := by
        cases xs with
        | nil => simp at hj; omega
        | cons y ys => exact ⟨y, ys, rfl⟩
      subst hxs
      simp only [List.length_cons] at hj
      obtain ⟨t', f1, f2, f3⟩ := settled_end hf y ys j t t1 e4 e1 (by omega)
      refine ⟨t', [], d.1, by simpa using f1, hdone, by simpa using hDN, rfl, ⟨d, by simpa using hd, rfl, by simpa using hmin⟩, by rw [e2] at f2; exact f2, by rw [f3, e3]; exact hP⟩
    · obtain ⟨t1, a1, a2, a3, a4, a5⟩ := shrink_advance hmax hS hsp hA h1
      have hLl := h2.length_le
      simp only [List.length_cons] at hLl
      obtain ⟨m, hm⟩ : ∃ m, min L.length (N - D.length) = m + 1 := ⟨min L.length (N - D.length) - 1, by omega⟩
      have hmx : min L.length (N - D.length) * cfg.maxSamples = m * cfg.maxSamples + cfg.maxSamples := by rw [hm]; exact Nat.succ_mul _ _
      obtain ⟨x, ys, zs, hxyz, hys⟩ := split_chunk hmax (xs := xs) (by omega)
      have hlen2 : xs.length = cfg.maxSamples + zs.length := by rw [hxyz, List.length_append, List.length_cons, hys]
      have hvc : v c1 = .applicable := hv c1 (h2.subset (by simp))
      obtain ⟨t2, b1, b2, b3, b4⟩ := shrink_samples hH hsm hvc hf x ys j t1 [] D a3 (by rw [a4]; exact hsp) (by rw [a5]; exact h3) (by simp; omega) (by omega)
      simp only [List.nil_append] at b2 b4
      have hb0 : block cfg.maxSamples 0 xs = x :: ys := by rw [hxyz]; exact block_zero hys
      have hbs : ∀ i, block cfg.maxSamples (i + 1) xs = block cfg.maxSamples i zs := fun i => by rw [hxyz]; exact block_succ hys
      have hv0 : chunkEstimate cfg (x :: ys) < longMax := by rw [← hb0]; exact hval 0 (by omega)
      have hmin' : min L1.length (N - (D ++ [(c1, chunkEstimate cfg (x :: ys))]).length) ≤ m := by simp; omega
      have hmul := Nat.mul_le_mul_right cfg.maxSamples hmin'
      obtain ⟨t3, ws, best, d1, d2, d3, d4, d5, d6, d7⟩ := ih (j + ys.length + 1) t2 c1 L1 (x :: ys) (D ++ [(c1, chunkEstimate cfg (x :: ys))]) zs (by omega) b2
        (by simpa using hys) (by rw [b3, a4]; exact hsp) (fun c hc => hv c (h2.subset (by simp [hc])))
        (by
          intro d hd
          rcases List.mem_append.1 hd with hd | hd
          · exact hD d hd
          · rw [List.mem_singleton.1 hd]; exact ⟨hvc, hv0⟩)
        (by simp)
        (by
          have hsub : (D.map Prod.fst ++ (c1 :: L1)).Subperm (D.map Prod.fst ++ L) := (List.subperm_append_left _).2 h2
          have := subperm_nodup hsub hnd
          simpa using this)
        b4 (by simp; omega) (by simp; omega) (by omega) (by omega)
        (by
          intro i hi
          rw [← hbs]
          exact hval (i + 1) (by omega))
      refine ⟨t3, (c1, chunkEstimate cfg (x :: ys)) :: ws, best, ?_, ⟨L1, h2, h4, d2⟩, ?_, ?_, ?_, ?_, d7⟩
      · have r1 : tunerRun cfg fuel v t (x :: ys) = .ok (t2, List.replicate cfg.maxSamples c1) := by
          rw [run_of_next a1 a2, b1, hys]
        have hlx : xs.length - (ws.length + 1) * cfg.maxSamples = zs.length - ws.length * cfg.maxSamples := by
          rw [Nat.succ_mul]; omega
        rw [List.map_cons, List.flatMap_cons, List.append_assoc, List.length_cons, hlx]
        have := tunerRun_append r1 d1
        rwa [← hxyz] at this
      · simp only [List.length_append, List.length_cons, List.length_nil] at d3 ⊢
        omega
      · rw [List.map_cons, d4, List.length_cons, List.range_succ_eq_map, List.map_cons, List.map_map, hb0]
        congr 1
        apply List.map_congr_left
        intro i _
        simp only [Function.comp, Nat.succ_eq_add_one, hbs]
      · rw [List.append_assoc] at d5
        simpa using d5
      · rw [b3, a4] at d6; exact d6

/-- One whole tuning interval. -/
theorem shrink_interval (hH : Shrinking cfg S N Ph P Inv Good Done) (hsm : cfg.smooth = none) (hmax : 0 < cfg.maxSamples) (hN : 0 < N)
    {v : C → Verdict} {p fuel : Nat} (hp : Ph p) (hf : 0 < fuel) {t : Tuner σ C} (h : IntervalBegin cfg S p t) (hP : P t.strat) (hv : ∀ c ∈ S, v c = .applicable)
    (hsp : TwoCompatible v S) (hnd : S.Nodup) {xs : List (Int × Bool)} (hlen : xs.length = cfg.tuningInterval)
    (hfit : min S.length N * cfg.maxSamples < cfg.tuningInterval)
    (hval : ∀ i < min S.length N, chunkEstimate cfg (block cfg.maxSamples i xs) < longMax) :
    ∃ t' ws best, tunerRun cfg fuel v t xs = .ok (t', (ws.map Prod.fst).flatMap (List.replicate cfg.maxSamples) ++
          List.replicate (cfg.tuningInterval - ws.length * cfg.maxSamples) best) ∧ ws ≠ [] ∧
        Chosen Good Done [] S ws ∧ ws.length ≤ N ∧
        ws.map Prod.snd = ((List.range ws.length).map fun i => chunkEstimate cfg (block cfg.maxSamples i xs)) ∧
        (∃ d ∈ ws, d.1 = best ∧ ∀ d' ∈ ws, d.2 ≤ d'.2) ∧ IntervalBegin cfg S (p + 1) t' ∧ P t'.strat := by
  obtain ⟨c0, L, s, h1, h2, h3, h4⟩ := hH.reset t.iteration t.tuningPhase t.evidence t.strat (by rw [h.phase]; exact hp) hP
  obtain ⟨t1, a1, a2, a3, a4, a5⟩ := shrink_begin hmax h hsp h1
  have hLl := h2.length_le
  simp only [List.length_cons] at hLl
  obtain ⟨m, hm⟩ : ∃ m, min S.length N = m + 1 := ⟨min S.length N - 1, by omega⟩
  have hmx : min S.length N * cfg.maxSamples = m * cfg.maxSamples + cfg.maxSamples := by rw [hm]; exact Nat.succ_mul _ _
  obtain ⟨x, ys, zs, hxyz, hys⟩ := split_chunk hmax (xs := xs) (by omega)
  have hlen2 : xs.length = cfg.maxSamples + zs.length := by rw [hxyz, List.length_append, List.length_cons, hys]
  have hvc : v c0 = .applicable := hv c0 (h2.subset (by simp))
  obtain ⟨t2, b1, b2, b3, b4⟩ := shrink_samples hH hsm hvc hf x ys 0 t1 [] [] a3 (by rw [a4]; exact hsp) (by rw [a5]; exact h3) (by simp; omega) (by omega)
  simp only [List.nil_append] at b2 b4
  have hb0 : block cfg.maxSamples 0 xs = x :: ys := by rw [hxyz]; exact block_zero hys
  have hbs : ∀ i, block cfg.maxSamples (i + 1) xs = block cfg.maxSamples i zs := fun i => by rw [hxyz]; exact block_succ hys
  have hv0 : chunkEstimate cfg (x :: ys) < longMax := by rw [← hb0]; exact hval 0 (by omega)
  have hmin' : min L.length (N - [(c0, chunkEstimate cfg (x :: ys))].length) ≤ m := by simp; omega
  have hmul := Nat.mul_le_mul_right cfg.maxSamples hmin'
  obtain ⟨t3, ws, best, d1, d2, d3, d4, d5, d6, d7⟩ := shrink_rest hH hsm hmax hf L.length _ t2 c0 L (x :: ys) [(c0, chunkEstimate cfg (x :: ys))] zs (by omega) b2
    (by simpa using hys) (by rw [b3, a4]; exact hsp) (fun c hc => hv c (h2.subset (by simp [hc])))
    (by
      intro d hd
      rw [List.mem_singleton.1 hd]; exact ⟨hvc, hv0⟩)
    (by simp) (by simpa using subperm_nodup h2 hnd) b4 (by simp; omega) (by simp; omega) (by omega) (by omega)
    (by
      intro i hi
      rw [← hbs]
      exact hval (i + 1) (by omega))
  refine ⟨t3, (c0, chunkEstimate cfg (x :: ys)) :: ws, best, ?_, by simp, ⟨L, h2, h4, d2⟩, ?_, ?_, by simpa using d5, ?_, d7⟩
  · have r1 : tunerRun cfg fuel v t (x :: ys) = .ok (t2, List.replicate cfg.maxSamples c0) := by
      rw [run_of_next a1 a2, b1, hys]
    have hlx : cfg.tuningInterval - (ws.length + 1) * cfg.maxSamples = zs.length - ws.length * cfg.maxSamples := by
      rw [Nat.succ_mul]; omega
    rw [List.map_cons, List.flatMap_cons, List.append_assoc, List.length_cons, hlx]
    have := tunerRun_append r1 d1
    rwa [← hxyz] at this
  · simp only [List.length_cons, List.length_nil] at d3 ⊢
    omega
  · rw [List.map_cons, d4, List.length_cons, List.range_succ_eq_map, List.map_cons, List.map_map, hb0]
    congr 1
    apply List.map_congr_left
    intro i _
    simp only [Function.comp, Nat.succ_eq_add_one, hbs]
  · rw [b3, a4] at d6; exact d6

/-- Histories of tuning intervals. -/
theorem shrink_intervals (hH : Shrinking cfg S N Ph P Inv Good Done) (hsm : cfg.smooth = none) (hmax : 0 < cfg.maxSamples) (hN : 0 < N)
    {v : C → Verdict} {fuel : Nat} (hf : 0 < fuel) (hv : ∀ c ∈ S, v c = .applicable) (hsp : TwoCompatible v S) (hnd : S.Nodup)
    (hfit : min S.length N * cfg.maxSamples < cfg.tuningInterval) :
    ∀ (xss : List (List (Int × Bool))) (p : Nat) (t : Tuner σ C), IntervalBegin cfg S p t → (∀ k < xss.length, Ph (p + k)) → P t.strat →
      (∀ xs ∈ xss, xs.length = cfg.tuningInterval) →
      (∀ (k : Nat) xs, xss[k]? = some xs → ∀ i < min S.length N, chunkEstimate cfg (block cfg.maxSamples i xs) < longMax) →
      ∃ (t' : Tuner σ C) (uss : List (List C)), tunerRun cfg fuel v t xss.flatten = .ok (t', uss.flatten) ∧ uss.length = xss.length ∧ P t'.strat ∧ IntervalBegin cfg S (p + xss.length) t' ∧
        ∀ (k : Nat) xs used, xss[k]? = some xs → uss[k]? = some used → used.length = cfg.tuningInterval ∧
          ∃ (T : List C) (best : C), T ≠ [] ∧ T.Nodup ∧ T ⊆ S ∧ T.length ≤ N ∧
            Chosen Good Done [] S (T.zip ((List.range T.length).map fun i => chunkEstimate cfg (block cfg.maxSamples i xs))) ∧
            SampledThen T cfg.maxSamples best used ∧ Fastest T (fun i => chunkEstimate cfg (block cfg.maxSamples i xs)) best := by
  intro xss
  induction xss with
  | nil => intro p t h _ hP _ _; exact ⟨t, [], rfl, rfl, hP, h, by simp⟩
  | cons xs xss ih =>
    intro p t h hph hP hl hval
    obtain ⟨t1, ws, best, a1, a2, a3, a4, a5, ⟨d, d1, d2, d3⟩, a7, a8⟩ := shrink_interval hH hsm hmax hN (hph 0 (by simp)) hf h hP hv hsp hnd (hl xs (by simp)) hfit (hval 0 xs rfl)
    obtain ⟨t2, uss, r1, r2, rP, rI, r3⟩ := ih (p + 1) t1 a7
      (fun k hk => by have := hph (k + 1) (by simpa using hk); rwa [Nat.add_right_comm, Nat.add_assoc] at *) a8 (fun y hy => hl y (by simp [hy])) (fun k ys hk => hval (k + 1) ys (by simpa using hk))
    set U := (ws.map Prod.fst).flatMap (List.replicate cfg.maxSamples) ++
        List.replicate (cfg.tuningInterval - ws.length * cfg.maxSamples) best with hU
    have hgen : ∀ T : List C, (T.flatMap (List.replicate cfg.maxSamples)).length = T.length * cfg.maxSamples := by
      intro T; simp [List.length_flatMap]
    have hsub := chosen_subperm a3
    have hwl : ws.length * cfg.maxSamples ≤ min S.length N * cfg.maxSamples := by
      apply Nat.mul_le_mul_right
      have := hsub.length_le
      rw [List.length_map] at this
      omega
    have hul : U.length = cfg.tuningInterval := by
      rw [hU, List.length_append, hgen, List.length_map, List.length_replicate]
      omega
    refine ⟨t2, U :: uss, ?_, by simp [r2], rP, by rw [List.length_cons, Nat.add_comm xss.length, ← Nat.add_assoc]; exact rI, ?_⟩
    · rw [List.flatten_cons, List.flatten_cons]
      exact tunerRun_append a1 r1
    · intro k ys used h1 h2
      cases k with
      | zero =>
        simp only [List.getElem?_cons_zero, Option.some.injEq] at h1 h2
        subst h1; subst h2
        have hest : ∀ i (hi : i < ws.length), ws[i].2 = chunkEstimate cfg (block cfg.maxSamples i xs) := by
          intro i hi
          have h2 : (ws.map Prod.snd)[i]'(by simpa using hi) = ws[i].2 := by simp
          rw [← h2]
          simp only [a5, List.getElem_map, List.getElem_range]
        refine ⟨hul, ws.map Prod.fst, best, by simpa using a2, subperm_nodup hsub hnd, hsub.subset, by simpa using a4, ?_, ?_, ?_⟩
        · rw [List.length_map, ← a5]
          have hz : ∀ l : List (C × Int), (l.map Prod.fst).zip (l.map Prod.snd) = l := by
            intro l
            induction l with
            | nil => rfl
            | cons a l ih => simp [ih]
          rw [hz]
          exact a3
        · unfold SampledThen
          rw [hul, List.length_map]
        · obtain ⟨i, hi, hdi⟩ := List.mem_iff_getElem.1 d1
          refine ⟨i, by rw [List.getElem?_map, List.getElem?_eq_getElem hi, hdi, ← d2]; rfl, ?_⟩
          intro k hk
          rw [List.length_map] at hk
          have := d3 ws[k] (List.getElem_mem _)
          rw [← hdi, hest i hi, hest k hk] at this
          exact this
      | succ k =>
        simp only [List.getElem?_cons_succ] at h1 h2
        exact r3 k ys used h1 h2

end

end Verif
