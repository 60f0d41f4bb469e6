import Verif.Lemmas.BayesianSearch
import Mathlib.Tactic.IntervalCases
/-!
# C114 — Bayesian search

* `C114_phase_partial`: with Bayesian search as the only strategy, every tuning phase measures at least one and at most as many configurations as it
  was told to, all of the search space and none twice, and then uses the fastest of them until the next phase; for every sequence of samples, every
  prediction, every way to sort, and every history. After every measurement the queue is what the next sample and the queue have in common, the
  configuration with the *smallest* value of the acquisition function first, or unchanged if ten samples have nothing in common with it. Partial: for
  configurations that are all applicable.
* `C114_rejected`: what was rejected indefinitely is not suggested again; what was rejected for the moment is.
* **Violation** `C114_violated_best_first`: the strategy is meant to test what the acquisition function values most. Even if the predictions are
  perfect, the fastest configuration is never tested, and never used, unless the search is allowed to test all.
* **Violation** `C114_violated_abort`: the code is meant to give up with an exception if no sample can be used. It never does.
-/
namespace Verif
open Spec

section
variable {C V : Type} [DecidableEq C] [LinearOrder V]

/-- What a phase with Bayesian search is, for every history of whole tuning intervals. -/
theorem C114_phase_partial {P : BayesParams C V} (hsort : P.Sorts) {cfg : TunerCfg (BayesState C) C} {v : C → Verdict} {S : List C}
    {t : Tuner (BayesState C) C} (hinit : Tuner.init cfg S BayesState.init = .ok t) (hst : cfg.strategies = [bayesianSearch P])
    (hsmooth : cfg.smooth = none) (hmax : 0 < cfg.maxSamples) (hnd : S.Nodup) (hv : ∀ c ∈ S, v c = .applicable) (htwo : TwoCompatible v S)
    (hpos : 0 < P.maxEvidence) (hfit : min S.length P.maxEvidence * cfg.maxSamples < cfg.tuningInterval)
    (xss : List (List (Int × Bool))) (hlen : ∀ xs ∈ xss, xs.length = cfg.tuningInterval)
    (hrange : ∀ (p : Nat) xs, xss[p]? = some xs → ∀ i < min S.length P.maxEvidence, chunkEstimate cfg (block cfg.maxSamples i xs) < longMax) :
    ∃ (t' : Tuner (BayesState C) C) (uss : List (List C)),
      tunerRun cfg (S.length + 1) v t xss.flatten = .ok (t', uss.flatten) ∧ uss.length = xss.length ∧ t'.strat.thrown = false ∧
      ∀ (p : Nat) xs used, xss[p]? = some xs → uss[p]? = some used → used.length = cfg.tuningInterval ∧
        ∃ T best, T ≠ [] ∧ T.Nodup ∧ T ⊆ S ∧ T.length ≤ P.maxEvidence ∧
          Chosen (BayesChoice P) (fun D L => P.maxEvidence ≤ D.length ∨ L = []) [] S
            (T.zip ((List.range T.length).map fun i => chunkEstimate cfg (block cfg.maxSamples i xs))) ∧
          SampledThen T cfg.maxSamples best used ∧ Fastest T (fun i => chunkEstimate cfg (block cfg.maxSamples i xs)) best := by
  obtain ⟨h0, hs⟩ := intervalBegin_init hinit
  have hne : S ≠ [] := by
    obtain ⟨a, ha, -⟩ := htwo
    rintro rfl
    simp at ha
  obtain ⟨t', uss, a1, a2, a3, -, a4⟩ := shrink_intervals (bayes_shrinking hst hsort hpos hne) hsmooth hmax hpos (fuel := S.length + 1) (by omega) hv htwo
    hnd hfit xss 0 t h0 (fun _ _ => trivial) (by rw [hs]; exact ⟨rfl, rfl⟩) hlen hrange
  exact ⟨t', uss, a1, a2, a3.2, a4⟩

/-- What can happen to the strategy apart from queries. -/
inductive BayesEvent (C : Type)
  | reset (queue : List C)
  | optimize (queue : List C)
  | evidence (c : C) (e : Evidence)
  | reject (c : C) (indefinitely : Bool)

/-- The strategy after a history. -/
def bayesAfter (P : BayesParams C V) : List (BayesEvent C) → BayesState C → BayesState C
  | [], s => s
  | .reset q :: es, s => bayesAfter P es ((bayesianSearch P).reset s 0 0 q []).2
  | .optimize q :: es, s => bayesAfter P es ((bayesianSearch P).optimize s q []).2
  | .evidence c e :: es, s => bayesAfter P es ((bayesianSearch P).addEvidence s c e)
  | .reject c b :: es, s => bayesAfter P es ((bayesianSearch P).reject s c b)

theorem attempts_invalid (P : BayesParams C V) (queue : List C) :
    ∀ n i (s : BayesState C), (BayesState.attempts P queue n i s).2.invalid = s.invalid ∧
      ((BayesState.attempts P queue n i s).1 = queue ∨ ∀ c ∈ s.invalid, c ∉ (BayesState.attempts P queue n i s).1)
  | 0, _, s => ⟨rfl, Or.inl rfl⟩
  | n + 1, i, s => by
    unfold BayesState.attempts
    simp only
    split_ifs with h1 h2
    · exact ⟨rfl, Or.inl rfl⟩
    · exact attempts_invalid P queue n (i + 1) { s with draws := s.draws + 1 }
    · refine ⟨rfl, Or.inr ?_⟩
      intro c hc hm
      rw [List.mem_reverse, List.mem_filter] at hm
      simp [hc] at hm

theorem optimize_invalid (P : BayesParams C V) (s : BayesState C) (queue : List C) :
    (s.optimize P queue).2.invalid = s.invalid ∧ ((s.optimize P queue).1.1 = queue ∨ ∀ c ∈ s.invalid, c ∉ (s.optimize P queue).1.1) := by
  unfold BayesState.optimize
  split_ifs with h
  · exact ⟨rfl, Or.inr (by simp)⟩
  · exact attempts_invalid P queue _ _ s

/-- The configurations that were rejected indefinitely are remembered, and nothing else. -/
theorem bayesAfter_invalid (P : BayesParams C V) (c : C) : ∀ (es : List (BayesEvent C)) (s : BayesState C),
    c ∈ (bayesAfter P es s).invalid ↔ c ∈ s.invalid ∨ BayesEvent.reject c true ∈ es
  | [], s => by simp [bayesAfter]
  | .reset q :: es, s => by
    rw [bayesAfter, bayesAfter_invalid P c es]
    simp only [bayesianSearch, (optimize_invalid P _ q).1, List.mem_cons, reduceCtorEq, false_or]
  | .optimize q :: es, s => by
    rw [bayesAfter, bayesAfter_invalid P c es]
    simp only [bayesianSearch, (optimize_invalid P _ q).1, List.mem_cons, reduceCtorEq, false_or]
  | .evidence c' e :: es, s => by
    rw [bayesAfter, bayesAfter_invalid P c es]
    simp only [bayesianSearch, List.mem_cons, reduceCtorEq, false_or]
  | .reject c' b :: es, s => by
    rw [bayesAfter, bayesAfter_invalid P c es]
    cases b
    · simp [bayesianSearch]
    · simp only [bayesianSearch, if_true, List.mem_cons, BayesEvent.reject.injEq, and_true]
      tauto

/-- A configuration that was rejected indefinitely is never suggested again: unless no sample can be used, it is not in the queue. One that was only rejected for
the moment is remembered nowhere: everything is as if it had not been rejected. -/
theorem C114_rejected (P : BayesParams C V) (es : List (BayesEvent C)) (c : C) :
    (BayesEvent.reject c true ∈ es → ∀ queue,
      ((bayesAfter P es BayesState.init).optimize P queue).1.1 = queue ∨ c ∉ ((bayesAfter P es BayesState.init).optimize P queue).1.1) ∧
      ∀ es', bayesAfter P (es ++ .reject c false :: es') BayesState.init = bayesAfter P (es ++ es') BayesState.init := by
  constructor
  · intro h queue
    have hm := (bayesAfter_invalid P c es BayesState.init).2 (Or.inr h)
    exact (optimize_invalid P _ queue).2.imp id fun h => h c hm
  · intro es'
    have gen : ∀ (es : List (BayesEvent C)) (s : BayesState C), bayesAfter P (es ++ .reject c false :: es') s = bayesAfter P (es ++ es') s := by
      intro es
      induction es with
      | nil => intro s; rfl
      | cons e es ih =>
        intro s
        cases e <;> exact ih _
    exact gen es _

end

section
variable {C : Type} [DecidableEq C]

theorem chosen_slowest {P : BayesParams C Int} {time : C → Int} (hacq : ∀ r D c, P.acquisition r D c = -(time c)) {Done : List (C × Int) → List C → Prop} :
    ∀ {ws D : List (C × Int)} {L : List C}, (∀ k, L ⊆ P.sample k) → Chosen (BayesChoice P) Done D L ws →
      ∀ c ∈ ws.map Prod.fst, ∀ x ∈ L, x ∉ ws.map Prod.fst → time x ≤ time c
  | [], _, _, _, _ => by simp
  | cw :: ws, D, L, hL, h => by
    obtain ⟨L', h1, ⟨r, k, h2⟩, h3⟩ := h
    obtain ⟨h2, h4⟩ : (∀ x, x ∈ cw.1 :: L' ↔ x ∈ P.sample k ∧ x ∈ L) ∧ ∀ x ∈ P.sample k, x ∈ L → P.acquisition r D cw.1 ≤ P.acquisition r D x := by
      rcases h2 with h2 | ⟨h2, h4⟩
      · exact h2
      · have hc : cw.1 ∈ L := h1.subset (by simp)
        exact absurd hc (h2 0 (by omega) cw.1 (hL _ hc))
    have ih := chosen_slowest hacq (fun k x hx => hL k (h1.subset (by simp [hx]))) h3
    intro c hc x hx hxn
    simp only [List.map_cons, List.mem_cons, not_or] at hc hxn
    rcases hc with rfl | hc
    · have := h4 x (hL k hx) hx
      rw [hacq, hacq] at this
      omega
    · refine ih c hc x ?_ hxn.2
      rcases List.mem_cons.1 ((h2 x).2 ⟨hL k hx, hx⟩) with h | h
      · exact absurd h hxn.1
      · exact h

/-- Predictions are exact, every sample contains the whole search space, and still the fastest configuration is never used. -/
theorem C114_violated_best_first {P : BayesParams C Int} (hsort : P.Sorts) {cfg : TunerCfg (BayesState C) C} {v : C → Verdict} {S : List C}
    {t : Tuner (BayesState C) C} (hinit : Tuner.init cfg S BayesState.init = .ok t) (hst : cfg.strategies = [bayesianSearch P])
    (hsmooth : cfg.smooth = none) (hmax : 0 < cfg.maxSamples) (hnd : S.Nodup) (hv : ∀ c ∈ S, v c = .applicable) (htwo : TwoCompatible v S)
    (hpos : 0 < P.maxEvidence) (hfit : min S.length P.maxEvidence * cfg.maxSamples < cfg.tuningInterval)
    {time : C → Int} (hacq : ∀ r D c, P.acquisition r D c = -(time c)) (hsample : ∀ k, S ⊆ P.sample k)
    {fastest : C} (hin : fastest ∈ S) (hfastest : ∀ c ∈ S, c ≠ fastest → time fastest < time c) (hbudget : P.maxEvidence < S.length)
    (xss : List (List (Int × Bool))) (hlen : ∀ xs ∈ xss, xs.length = cfg.tuningInterval)
    (hrange : ∀ (p : Nat) xs, xss[p]? = some xs → ∀ i < min S.length P.maxEvidence, chunkEstimate cfg (block cfg.maxSamples i xs) < longMax) :
    ∃ t' used, tunerRun cfg (S.length + 1) v t xss.flatten = .ok (t', used) ∧ used.length = xss.length * cfg.tuningInterval ∧ fastest ∉ used := by
  obtain ⟨t', uss, a1, a2, -, a4⟩ := C114_phase_partial hsort hinit hst hsmooth hmax hnd hv htwo hpos hfit xss hlen hrange
  have hall : ∀ used ∈ uss, used.length = cfg.tuningInterval ∧ fastest ∉ used := by
    intro used hu
    obtain ⟨p, hp, hup⟩ := List.mem_iff_getElem.1 hu
    obtain ⟨b1, T, best, b2, b3, b4, b5, b6, b7, i, b8, -⟩ := a4 p (xss[p]'(by omega)) used (List.getElem?_eq_getElem _) (by rw [List.getElem?_eq_getElem hp, hup])
    refine ⟨b1, ?_⟩
    have hT : (T.zip ((List.range T.length).map fun i => chunkEstimate cfg (block cfg.maxSamples i (xss[p]'(by omega))))).map Prod.fst = T := by
      rw [List.map_fst_zip]
      simp
    have hslow := chosen_slowest hacq hsample b6
    rw [hT] at hslow
    have hno : fastest ∉ T := by
      intro hf
      have hsub : S ⊆ T := by
        intro x hx
        by_contra hxT
        have h1 := hslow fastest hf x hx hxT
        have h2 := hfastest x hx (by rintro rfl; exact hxT hf)
        omega
      have := (List.subperm_of_subset hnd hsub).length_le
      omega
    have hbest : best ∈ T := List.mem_of_getElem? b8
    intro hf
    rw [b7] at hf
    rcases List.mem_append.1 hf with hf | hf
    · obtain ⟨c, hc, hfc⟩ := List.mem_flatMap.1 hf
      rw [(List.mem_replicate.1 hfc).2] at hno
      exact hno hc
    · rw [(List.mem_replicate.1 hf).2] at hno
      exact hno hbest
  refine ⟨t', uss.flatten, a1, ?_, ?_⟩
  · rw [List.length_flatten, ← a2]
    have : uss.map List.length = List.replicate uss.length cfg.tuningInterval := by
      rw [List.eq_replicate_iff]
      refine ⟨by simp, ?_⟩
      intro n hn
      obtain ⟨u, hu, rfl⟩ := List.mem_map.1 hn
      exact (hall u hu).1
    rw [this]
    simp
  · intro hf
    obtain ⟨u, hu, hfu⟩ := List.mem_flatten.1 hf
    exact (hall u hu).2 hfu

/-- No sample contains anything of the queue: no exception, the queue stays as it is. -/
theorem C114_violated_abort {V : Type} [LinearOrder V] {P : BayesParams C V} (hsort : P.Sorts) {s : BayesState C} (hs : s.thrown = false)
    {queue : List C} (hnone : ∀ k, ∀ c ∈ P.sample k, c ∉ queue) (hE : s.evidence.length < P.maxEvidence) :
    (s.optimize P queue).1 = (queue, false) ∧ (s.optimize P queue).2.thrown = false := by
  have h : BayesState.attempts P queue bayesMaxAttempts 0 s = (queue, { s with draws := s.draws + bayesMaxAttempts }) := by
    rcases attempts_spec hsort queue bayesMaxAttempts 0 s (by simp) with ⟨k, hk, h1, X, h2, h3, h4, h5, h6⟩ | ⟨h1, h2⟩
    · obtain ⟨x, hx⟩ := List.exists_mem_of_ne_nil X h3
      have := (h5 x).1 hx
      exact absurd this.2.1 (hnone _ x this.1)
    · exact h2
  unfold BayesState.optimize
  rw [if_neg (by omega), h]
  exact ⟨rfl, hs⟩

end

/-! The hypotheses can be met: three configurations, two of which may be tested, with exact predictions. -/

/-- A sort for the examples. -/
def c114Sort (f : Nat → Int) (l : List Nat) : List Nat := l.mergeSort fun a b => decide (f a ≤ f b)

def c114P (n : Nat) : BayesParams Nat Int := ⟨n, fun _ => [2, 0, 1, 0], fun _ _ c => -(c : Int), c114Sort⟩

theorem c114P_sorts (n : Nat) : (c114P n).Sorts := by
  intro f l
  refine ⟨List.mergeSort_perm _ _, ?_⟩
  have := List.pairwise_mergeSort (le := fun a b : Nat => decide (f a ≤ f b))
    (by intro a b c; simp only [decide_eq_true_eq]; exact le_trans)
    (by intro a b; simp only [Bool.or_eq_true, decide_eq_true_eq]; exact le_total _ _) l
  show List.Pairwise _ (c114Sort f l)
  unfold c114Sort
  simpa using this

def c114Cfg (n : Nat) : TunerCfg (BayesState Nat) Nat := ⟨9, 2, 2, .fastestAbs, [bayesianSearch (c114P n)], none⟩

example : ∃ t' used, tunerRun (c114Cfg 2) 4 (fun _ => .applicable)
      { iteration := 0, tuningPhase := 0, iterationBaseline := 0, isTuning := false, forceRetune := false, samplesNot := [0, 0], samplesReb := [],
        evidence := [], searchSpace := [0, 1, 2], queue := [0, 1, 2], strat := BayesState.init } (List.replicate 9 (5, false)) = .ok (t', used) ∧
      used.length = 9 ∧ 0 ∉ used := by
  have h := C114_violated_best_first (c114P_sorts 2) (cfg := c114Cfg 2) (v := fun _ => .applicable) (S := [0, 1, 2]) rfl rfl rfl (by decide)
    (by decide) (by simp) (by exact ⟨0, by simp, 1, by simp, by simp⟩) (by decide) (by decide) (time := fun c => (c : Int)) (fun _ _ _ => rfl)
    (by intro k x hx; simp [c114P] at hx ⊢; omega) (fastest := 0) (by simp) (by decide) (by decide) [List.replicate 9 (5, false)] (by simp [c114Cfg])
    (by
      intro p xs hp i hi
      cases p with
      | zero =>
        simp only [List.getElem?_cons_zero, Option.some.injEq] at hp
        subst hp
        have : i < 2 := by simpa [c114P] using hi
        interval_cases i <;> decide
      | succ p => simp at hp)
  obtain ⟨t', used, h1, h2, h3⟩ := h
  refine ⟨t', used, ?_, by simpa [c114Cfg] using h2, h3⟩
  rw [← h1]
  simp [c114Cfg]

example : ((bayesAfter (c114P 2) [.reject 0 true] BayesState.init).optimize (c114P 2) [0, 1, 2]).1.1 = [1, 2] ∧
    ((bayesAfter (c114P 2) [.reject 0 false] BayesState.init).optimize (c114P 2) [0, 1, 2]).1.1 = [0, 1, 2] := by
  simp [bayesAfter, bayesianSearch, BayesState.optimize, BayesState.attempts, BayesState.sampleAcquisitions, BayesState.init, c114P, c114Sort, firstOccurrences,
    bayesMaxAttempts, List.mergeSort, List.MergeSort.Internal.splitInTwo, List.merge]

end Verif
