import Verif.Lemmas.BayesianClusterSearch
import Mathlib.Tactic.IntervalCases
/-!
# C121 — Bayesian cluster search

* `C121_phases_partial`: with Bayesian cluster search as the only strategy, the first tuning phase measures every configuration, and every later phase measures at
  least one and at most as many as it was told to, all of the search space and none twice; each phase then uses the fastest of what it measured until the next
  phase. After every measurement of a later phase the queue is what the next sample and the queue have in common, the configuration with the *smallest* value of the
  acquisition function first, or unchanged if ten samples have nothing in common with it. Partial: for configurations that are all applicable.
* `C121_suggestions`: one call, with rejected configurations.
* `C121_not_rejected`: what was not rejected is suggested if it is sampled.
* **Violation** `C121_violated_best_first`: even if the predictions are perfect, the fastest configuration is not used any more after the first phase.
* **Violation** `C121_violated_rejected`: a configuration that was rejected just for the moment is not suggested any more.
* **Violation** `C121_violated_abort`: if no sample can be used there is no exception.
-/
namespace Verif
open Spec

section
variable {C V : Type} [DecidableEq C] [LinearOrder V]

/-- In the order of the queue, to its end. -/
theorem chosen_all {C : Type} : ∀ {ws D : List (C × Int)} {L : List C}, Chosen (fun _ L c L' => L = c :: L') (fun _ L => L = []) D L ws → ws.map Prod.fst = L
  | [], _, _, h => h.symm
  | cw :: ws, D, L, h => by
    obtain ⟨L', -, h1, h2⟩ := h
    rw [h1, List.map_cons, chosen_all h2]

/-- What the phases are, for every history of whole tuning intervals. -/
theorem C121_phases_partial {P : ClusterSearchParams C V} (hP : P.Ok) {cfg : TunerCfg (ClusterSearch C) C} {v : C → Verdict} {S : List C}
    {t : Tuner (ClusterSearch C) C} (hinit : Tuner.init cfg S ClusterSearch.init = .ok t) (hst : cfg.strategies = [clusterSearch P])
    (hsmooth : cfg.smooth = none) (hmax : 0 < cfg.maxSamples) (hnd : S.Nodup) (hv : ∀ c ∈ S, v c = .applicable) (htwo : TwoCompatible v S)
    (hpos : 0 < P.maxEvidence) (hfit : S.length * cfg.maxSamples < cfg.tuningInterval)
    (first : List (Int × Bool)) (xss : List (List (Int × Bool))) (hlen : ∀ xs ∈ first :: xss, xs.length = cfg.tuningInterval)
    (hrange : ∀ xs ∈ first :: xss, ∀ i < S.length, chunkEstimate cfg (block cfg.maxSamples i xs) < longMax) :
    ∃ (t' : Tuner (ClusterSearch C) C) (used0 : List C) (uss : List (List C)),
      tunerRun cfg (S.length + 1) v t (first ++ xss.flatten) = .ok (t', used0 ++ uss.flatten) ∧ uss.length = xss.length ∧ t'.strat.thrown = false ∧
      used0.length = cfg.tuningInterval ∧
      (∃ best, SampledThen S cfg.maxSamples best used0 ∧ Fastest S (fun i => chunkEstimate cfg (block cfg.maxSamples i first)) best) ∧
      ∀ (p : Nat) xs used, xss[p]? = some xs → uss[p]? = some used → used.length = cfg.tuningInterval ∧
        ∃ T best, T ≠ [] ∧ T.Nodup ∧ T ⊆ S ∧ T.length ≤ P.maxEvidence ∧
          Chosen (ClusterChoice P) (fun D L => P.maxEvidence ≤ D.length ∨ L = []) [] S
            (T.zip ((List.range T.length).map fun i => chunkEstimate cfg (block cfg.maxSamples i xs))) ∧
          SampledThen T cfg.maxSamples best used ∧ Fastest T (fun i => chunkEstimate cfg (block cfg.maxSamples i xs)) best := by
  obtain ⟨h0, hs⟩ := intervalBegin_init hinit
  have hne : S ≠ [] := by
    obtain ⟨a, ha, -⟩ := htwo
    rintro rfl
    simp at ha
  have hSl : 0 < S.length := List.length_pos_iff.2 hne
  obtain ⟨t1, uss1, a1, a2, a3, a5, a4⟩ := shrink_intervals (cluster_first (P := P) hst hne) hsmooth hmax hSl (fuel := S.length + 1) (by omega) hv htwo
    hnd (by simpa using hfit) [first] 0 t h0 (fun k hk => by simp at hk; omega) (by rw [hs]; exact ⟨rfl, rfl⟩) (fun xs hxs => hlen xs (by simp at hxs; simp [hxs]))
    (fun k xs hk i hi => hrange xs (by have := List.mem_of_getElem? hk; simp at this; simp [this]) i (by omega))
  have hmin : min S.length P.maxEvidence * cfg.maxSamples ≤ S.length * cfg.maxSamples := Nat.mul_le_mul_right _ (by omega)
  obtain ⟨t', uss, b1, b2, b3, -, b4⟩ := shrink_intervals (cluster_later (P := P) hst hP hpos hne) hsmooth hmax hpos (fuel := S.length + 1) (by omega) hv htwo
    hnd (by omega) xss 1 t1 a5 (fun k _ => by omega) a3 (fun xs hxs => hlen xs (by simp [hxs]))
    (fun k xs hk i hi => hrange xs (by simp [List.mem_of_getElem? hk]) i (by omega))
  obtain ⟨used0, hu⟩ : ∃ u, uss1 = [u] := List.length_eq_one_iff.1 a2
  subst hu
  obtain ⟨c1, T, best, -, -, -, -, c2, c3, c4⟩ := a4 0 first used0 rfl rfl
  have hT : T = S := by
    have := chosen_all c2
    rwa [List.map_fst_zip (by simp)] at this
  subst hT
  refine ⟨t', used0, uss, ?_, b2, b3.2, c1, ⟨best, c3, c4⟩, b4⟩
  simp only [List.flatten_cons, List.flatten_nil, List.append_nil] at a1
  exact tunerRun_append a1 b1

/-- One call in a later phase: if the phase has its measurements, it ends. Else the queue becomes what is in the sample and the queue and was not rejected, without
repetition, the smallest acquisition at the end, where the tuner takes the next configuration from; if ten samples contain nothing of this kind the queue stays. -/
theorem C121_suggestions {P : ClusterSearchParams C V} (hP : P.Ok) (s : ClusterSearch C) (hs : s.firstPhase = false) (queue : List C) :
    (P.maxEvidence ≤ s.num → (s.optimize P queue).1 = ([], true)) ∧
    (s.num < P.maxEvidence → (s.optimize P queue).1.2 = false ∧ (s.optimize P queue).2.thrown = s.thrown ∧
      ((∃ k < 10, (∀ c ∈ (s.optimize P queue).1.1, c ∈ P.sample (s.draws + k) s.iteration) ∧ (s.optimize P queue).1.1.Nodup ∧
          (s.optimize P queue).1.1 ≠ [] ∧
          (∀ c, c ∈ (s.optimize P queue).1.1 ↔ c ∈ P.sample (s.draws + k) s.iteration ∧ c ∈ queue ∧ c ∉ s.invalid) ∧
          (s.optimize P queue).1.1.Pairwise fun a b => P.acquisition (s.draws + k) s.evidence s.iteration b ≤ P.acquisition (s.draws + k) s.evidence s.iteration a) ∨
        (∀ k < 10, ∀ c ∈ P.sample (s.draws + k) s.iteration, c ∈ queue → c ∈ s.invalid) ∧ (s.optimize P queue).1.1 = queue)) := by
  constructor
  · intro h
    unfold ClusterSearch.optimize
    simp [hs, h]
  · intro h
    have e : s.optimize P queue = (((ClusterSearch.attempts P queue clusterMaxAttempts 0 s).1, false), (ClusterSearch.attempts P queue clusterMaxAttempts 0 s).2) := by
      unfold ClusterSearch.optimize
      simp only [hs, Bool.false_eq_true, if_false, ge_iff_le, if_neg (show ¬ P.maxEvidence ≤ s.num by omega)]
    rw [e]
    rcases cluster_attempts_spec hP queue clusterMaxAttempts 0 s (by simp) with ⟨k, hk, h1, X, h2, h3, h4, h5, h6⟩ | ⟨h1, h2⟩
    · rw [h2]
      refine ⟨rfl, rfl, .inl ⟨k, hk, ?_, List.nodup_reverse.2 h4, by simpa using h3, ?_, ?_⟩⟩
      · intro c hc
        exact ((h5 c).1 (List.mem_reverse.1 hc)).1
      · intro c
        rw [List.mem_reverse, h5 c]
        rfl
      · exact List.pairwise_reverse.2 h6
    · rw [h2]
      refine ⟨rfl, rfl, .inr ⟨?_, rfl⟩⟩
      intro k hk c hc hq
      by_contra hn
      exact h1 k hk c ⟨hc, hq, hn⟩

/-- What can happen to the strategy. -/
inductive ClusterEvent (C : Type)
  | reset (iteration phase : Nat) (queue : List C)
  | optimize (queue : List C)
  | evidence (c : C) (e : Evidence)
  | reject (c : C) (indefinitely : Bool)

/-- The strategy after a history. -/
def clusterAfter (P : ClusterSearchParams C V) : List (ClusterEvent C) → ClusterSearch C → ClusterSearch C
  | [], s => s
  | .reset it ph q :: es, s => clusterAfter P es ((clusterSearch P).reset s it ph q []).2
  | .optimize q :: es, s => clusterAfter P es ((clusterSearch P).optimize s q []).2
  | .evidence c e :: es, s => clusterAfter P es ((clusterSearch P).addEvidence s c e)
  | .reject c b :: es, s => clusterAfter P es ((clusterSearch P).reject s c b)

theorem cluster_optimize_invalid {P : ClusterSearchParams C V} (hP : P.Ok) (s : ClusterSearch C) (queue : List C) :
    (s.optimize P queue).2.invalid = s.invalid := by
  unfold ClusterSearch.optimize
  split_ifs
  · rfl
  · rfl
  · rcases cluster_attempts_spec hP queue clusterMaxAttempts 0 s (by simp) with ⟨k, -, -, X, h2, -⟩ | ⟨-, h2⟩ <;> rw [h2]

theorem clusterAfter_invalid {P : ClusterSearchParams C V} (hP : P.Ok) (c : C) : ∀ (es : List (ClusterEvent C)) (s : ClusterSearch C),
    c ∈ (clusterAfter P es s).invalid ↔ c ∈ s.invalid ∨ ∃ b, ClusterEvent.reject c b ∈ es
  | [], s => by simp [clusterAfter]
  | .reset it ph q :: es, s => by
    rw [clusterAfter, clusterAfter_invalid hP c es]
    have : ((clusterSearch P).reset s it ph q []).2.invalid = s.invalid := by
      simp only [clusterSearch, ClusterSearch.reset]
      split_ifs
      · exact cluster_optimize_invalid hP _ q
      · rfl
    simp only [this, List.mem_cons, reduceCtorEq, false_or]
  | .optimize q :: es, s => by
    rw [clusterAfter, clusterAfter_invalid hP c es]
    simp only [clusterSearch, cluster_optimize_invalid hP, List.mem_cons, reduceCtorEq, false_or]
  | .evidence c' e :: es, s => by
    rw [clusterAfter, clusterAfter_invalid hP c es]
    simp only [clusterSearch, List.mem_cons, reduceCtorEq, false_or]
  | .reject c' b :: es, s => by
    rw [clusterAfter, clusterAfter_invalid hP c es]
    simp only [clusterSearch, List.mem_cons, ClusterEvent.reject.injEq]
    constructor
    · rintro ((rfl | h) | ⟨b', h⟩)
      · exact .inr ⟨b, .inl ⟨rfl, rfl⟩⟩
      · exact .inl h
      · exact .inr ⟨b', .inr h⟩
    · rintro (h | ⟨b', ⟨rfl, -⟩ | h⟩)
      · exact .inl (.inr h)
      · exact .inl (.inl rfl)
      · exact .inr ⟨b', h⟩

/-- What was not rejected can be suggested; **violation**: rejecting for the moment is rejecting for ever. Whatever happens before and later, in no phase after the
first is the configuration in a queue made of a sample. -/
theorem C121_violated_rejected {P : ClusterSearchParams C V} (hP : P.Ok) (es : List (ClusterEvent C)) (c : C) (hrej : ClusterEvent.reject c false ∈ es)
    (hlater : (clusterAfter P es ClusterSearch.init).firstPhase = false) (hnum : (clusterAfter P es ClusterSearch.init).num < P.maxEvidence)
    (queue : List C) : ((clusterAfter P es ClusterSearch.init).optimize P queue).1.1 = queue ∨ c ∉ ((clusterAfter P es ClusterSearch.init).optimize P queue).1.1 := by
  have hc := (clusterAfter_invalid hP c es ClusterSearch.init).2 (.inr ⟨false, hrej⟩)
  rcases ((C121_suggestions hP _ hlater queue).2 hnum).2.2 with ⟨k, -, -, -, -, h, -⟩ | ⟨-, h⟩
  · right
    intro hm
    exact ((h c).1 hm).2.2 hc
  · exact .inl h

/-- A configuration that was never rejected is suggested whenever it is sampled and asked for. -/
theorem C121_not_rejected {P : ClusterSearchParams C V} (hP : P.Ok) (es : List (ClusterEvent C)) (c : C) (hrej : ∀ b, ClusterEvent.reject c b ∉ es)
    (hlater : (clusterAfter P es ClusterSearch.init).firstPhase = false) (hnum : (clusterAfter P es ClusterSearch.init).num < P.maxEvidence)
    (hsample : ∀ k it, c ∈ P.sample k it) {queue : List C} (hq : c ∈ queue) : c ∈ ((clusterAfter P es ClusterSearch.init).optimize P queue).1.1 := by
  have hc : c ∉ (clusterAfter P es ClusterSearch.init).invalid := by
    rw [clusterAfter_invalid hP]
    rintro (h | ⟨b, h⟩)
    · simp [ClusterSearch.init] at h
    · exact hrej b h
  rcases ((C121_suggestions hP _ hlater queue).2 hnum).2.2 with ⟨k, -, -, -, -, h, -⟩ | ⟨-, h⟩
  · exact (h c).2 ⟨hsample _ _, hq, hc⟩
  · rw [h]; exact hq

/-- **Violation.** No exception if no sample contains anything of the queue. -/
theorem C121_violated_abort {P : ClusterSearchParams C V} (hP : P.Ok) {s : ClusterSearch C} (hs : s.thrown = false) (hlater : s.firstPhase = false)
    {queue : List C} (hnone : ∀ k it, ∀ c ∈ P.sample k it, c ∉ queue) (hE : s.num < P.maxEvidence) :
    (s.optimize P queue).1 = (queue, false) ∧ (s.optimize P queue).2.thrown = false := by
  obtain ⟨h1, h2, h3⟩ := (C121_suggestions hP s hlater queue).2 hE
  rcases h3 with ⟨k, -, -, -, hne, h, -⟩ | ⟨-, h⟩
  · obtain ⟨c, hc⟩ := List.exists_mem_of_ne_nil _ hne
    obtain ⟨i1, i2, -⟩ := (h c).1 hc
    exact absurd i2 (hnone _ _ c i1)
  · exact ⟨Prod.ext h h1, by rw [h2, hs]⟩

end

section
variable {C : Type} [DecidableEq C]

theorem cluster_chosen_slowest {P : ClusterSearchParams C Int} {time : C → Int} (hacq : ∀ k E it c, P.acquisition k E it c = -(time c)) {Done : List (C × Int) → List C → Prop} :
    ∀ {ws D : List (C × Int)} {L : List C}, (∀ k it, L ⊆ P.sample k it) → Chosen (ClusterChoice P) Done D L ws →
      ∀ c ∈ ws.map Prod.fst, ∀ x ∈ L, x ∉ ws.map Prod.fst → time x ≤ time c
  | [], _, _, _, _ => by simp
  | cw :: ws, D, L, hL, h => by
    obtain ⟨L', h1, ⟨E, k, it, -, h2⟩, h3⟩ := h
    obtain ⟨h2, h4⟩ : (∀ x, x ∈ cw.1 :: L' ↔ x ∈ P.sample k it ∧ x ∈ L) ∧ ∀ x ∈ P.sample k it, x ∈ L → P.acquisition k E it cw.1 ≤ P.acquisition k E it x := by
      rcases h2 with h2 | ⟨h2, h4⟩
      · exact h2
      · have hc : cw.1 ∈ L := h1.subset (by simp)
        exact absurd hc (h2 0 (by omega) cw.1 (hL _ _ hc))
    have ih := cluster_chosen_slowest hacq (fun k it x hx => hL k it (h1.subset (by simp [hx]))) h3
    intro c hc x hx hxn
    simp only [List.map_cons, List.mem_cons, not_or] at hc hxn
    rcases hc with rfl | hc
    · have := h4 x (hL k it hx) hx
      rw [hacq, hacq] at this
      omega
    · refine ih c hc x ?_ hxn.2
      rcases List.mem_cons.1 ((h2 x).2 ⟨hL k it hx, hx⟩) with h | h
      · exact absurd h hxn.1
      · exact h

/-- **Violation.** Predictions are exact, every sample contains the whole search space, and still the fastest configuration is not used after the first phase. -/
theorem C121_violated_best_first {P : ClusterSearchParams C Int} (hP : P.Ok) {cfg : TunerCfg (ClusterSearch C) C} {v : C → Verdict} {S : List C}
    {t : Tuner (ClusterSearch C) C} (hinit : Tuner.init cfg S ClusterSearch.init = .ok t) (hst : cfg.strategies = [clusterSearch P])
    (hsmooth : cfg.smooth = none) (hmax : 0 < cfg.maxSamples) (hnd : S.Nodup) (hv : ∀ c ∈ S, v c = .applicable) (htwo : TwoCompatible v S)
    (hpos : 0 < P.maxEvidence) (hfit : S.length * cfg.maxSamples < cfg.tuningInterval)
    {time : C → Int} (hacq : ∀ k E it c, P.acquisition k E it c = -(time c)) (hsample : ∀ k it, S ⊆ P.sample k it)
    {fastest : C} (hin : fastest ∈ S) (hfastest : ∀ c ∈ S, c ≠ fastest → time fastest < time c) (hbudget : P.maxEvidence < S.length)
    (first : List (Int × Bool)) (xss : List (List (Int × Bool))) (hlen : ∀ xs ∈ first :: xss, xs.length = cfg.tuningInterval)
    (hrange : ∀ xs ∈ first :: xss, ∀ i < S.length, chunkEstimate cfg (block cfg.maxSamples i xs) < longMax) :
    ∃ t' used0 used, tunerRun cfg (S.length + 1) v t (first ++ xss.flatten) = .ok (t', used0 ++ used) ∧ used0.length = cfg.tuningInterval ∧
      used.length = xss.length * cfg.tuningInterval ∧ fastest ∉ used := by
  obtain ⟨t', used0, uss, a1, a2, -, a3, -, a4⟩ := C121_phases_partial hP hinit hst hsmooth hmax hnd hv htwo hpos hfit first xss hlen hrange
  have hall : ∀ used ∈ uss, used.length = cfg.tuningInterval ∧ fastest ∉ used := by
    intro used hu
    obtain ⟨p, hp, hup⟩ := List.mem_iff_getElem.1 hu
    obtain ⟨b1, T, best, b2, b3, b4, b5, b6, b7, i, b8, -⟩ := a4 p (xss[p]'(by omega)) used (List.getElem?_eq_getElem _) (by rw [List.getElem?_eq_getElem hp, hup])
    refine ⟨b1, ?_⟩
    have hT : (T.zip ((List.range T.length).map fun i => chunkEstimate cfg (block cfg.maxSamples i (xss[p]'(by omega))))).map Prod.fst = T := by
      rw [List.map_fst_zip]
      simp
    have hslow := cluster_chosen_slowest hacq hsample b6
    rw [hT] at hslow
    have hno : fastest ∉ T := by
      intro hf
      have hsub : S ⊆ T := by
        intro x hx
        by_contra hxT
        have h1 := hslow fastest hf x hx hxT
        have h2 := hfastest x hx (by rintro rfl; exact hxT hf)
        omega
      have := (List.subperm_of_subset hnd hsub).length_le
      omega
    have hbest : best ∈ T := List.mem_of_getElem? b8
    intro hf
    rw [b7] at hf
    rcases List.mem_append.1 hf with hf | hf
    · obtain ⟨c, hc, hfc⟩ := List.mem_flatMap.1 hf
      rw [(List.mem_replicate.1 hfc).2] at hno
      exact hno hc
    · rw [(List.mem_replicate.1 hf).2] at hno
      exact hno hbest
  refine ⟨t', used0, uss.flatten, a1, a3, ?_, ?_⟩
  · rw [List.length_flatten, ← a2]
    have : uss.map List.length = List.replicate uss.length cfg.tuningInterval := by
      rw [List.eq_replicate_iff]
      refine ⟨by simp, ?_⟩
      intro n hn
      obtain ⟨u, hu, rfl⟩ := List.mem_map.1 hn
      exact (hall u hu).1
    rw [this]
    simp
  · intro hf
    obtain ⟨u, hu, hfu⟩ := List.mem_flatten.1 hf
    exact (hall u hu).2 hfu

end

/-! The hypotheses can be met: three configurations, two of which may be tested in a later phase, with exact predictions. -/

/-- A sort for the examples. -/
def c121Sort (f : Nat → Int) (l : List Nat) : List Nat := l.mergeSort fun a b => decide (f a ≤ f b)

def c121P : ClusterSearchParams Nat Int := ⟨2, fun _ _ => [2, 0, 1], fun _ _ _ c => -(c : Int), c121Sort⟩

theorem c121P_ok : c121P.Ok := by
  refine ⟨fun _ _ => by simp [c121P], fun f l => ⟨List.mergeSort_perm _ _, ?_⟩⟩
  have := List.pairwise_mergeSort (le := fun a b : Nat => decide (f a ≤ f b))
    (by intro a b c; simp only [decide_eq_true_eq]; exact le_trans)
    (by intro a b; simp only [Bool.or_eq_true, decide_eq_true_eq]; exact le_total _ _) l
  show List.Pairwise _ (c121Sort f l)
  unfold c121Sort
  simpa using this

def c121Cfg : TunerCfg (ClusterSearch Nat) Nat := ⟨9, 2, 2, .fastestAbs, [clusterSearch c121P], none⟩

example : ∃ t' used0 used, tunerRun c121Cfg 4 (fun _ => .applicable)
      { iteration := 0, tuningPhase := 0, iterationBaseline := 0, isTuning := false, forceRetune := false, samplesNot := [0, 0], samplesReb := [],
        evidence := [], searchSpace := [0, 1, 2], queue := [0, 1, 2], strat := ClusterSearch.init }
      (List.replicate 9 (5, false) ++ [List.replicate 9 (7, false)].flatten) = .ok (t', used0 ++ used) ∧
      used0.length = 9 ∧ used.length = 1 * 9 ∧ 0 ∉ used :=
  C121_violated_best_first c121P_ok (cfg := c121Cfg) (v := fun _ => .applicable) (S := [0, 1, 2]) rfl rfl rfl (by decide)
    (by decide) (by simp) (by exact ⟨0, by simp, 1, by simp, by simp⟩) (by decide) (by decide) (time := fun c => (c : Int)) (fun _ _ _ _ => rfl)
    (by intro k it x hx; simp [c121P] at hx ⊢; omega) (fastest := 0) (by simp) (by decide) (by decide) (List.replicate 9 (5, false)) [List.replicate 9 (7, false)]
    (by
      intro xs hxs
      simp only [List.mem_cons, List.not_mem_nil, or_false] at hxs
      rcases hxs with rfl | rfl <;> rfl)
    (by
      intro xs hxs i hi
      simp only [List.mem_cons, List.not_mem_nil, or_false] at hxs
      have : i < 3 := hi
      rcases hxs with rfl | rfl <;> interval_cases i <;> decide)

/-- A configuration that was rejected for the moment: the other two are suggested, in every later phase. -/
example : (((clusterSearch c121P).reject ClusterSearch.init 2 false).reset c121P 9 1 [2, 1, 0]).1.1 = [0, 1] := by
  simp [clusterSearch, ClusterSearch.reset, ClusterSearch.optimize, ClusterSearch.attempts, ClusterSearch.sampleAcquisitions, ClusterSearch.init, c121P, c121Sort,
    clusterMaxAttempts, List.mergeSort, List.MergeSort.Internal.splitInTwo]

end Verif
