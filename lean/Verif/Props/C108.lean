import Verif.Lemmas.RandomSearch
import Verif.Props.C101
/-!
# C108 — Random search and sorting by name

* `C108_random_partial`: with random search as the only strategy, every tuning phase tests exactly as many different configurations of the search
  space as it was told to, the first of them always being the first of the search space, and uses the fastest of them until the next phase,
  whatever the random numbers are and for every history. Partial: for configurations that are all applicable and a search space with enough
  configurations. `C108_any_order`: apart from the first configuration every choice in every order is possible.
* **Violation** `C108_violated_small_space`: if the search space has fewer configurations than are to be tested, the strategy chooses from an
  empty queue, which is undefined behaviour, as soon as all configurations were tested.
* `C108_sorted_partial`: with sorting by name, every phase tests all applicable configurations in descending order and then uses the fastest.
-/
namespace Verif
open Spec

section
variable {C : Type} [DecidableEq C]

/-- What random search tests, for every sequence of random numbers and every history of whole tuning intervals. -/
theorem C108_random_partial {cfg : TunerCfg RandomState C} {m : Nat} {draw : Nat → Nat → Nat} {v : C → Verdict} {S : List C}
    {t : Tuner RandomState C} (hinit : Tuner.init cfg S RandomState.init = .ok t)
    (hst : cfg.strategies = [randomStrategy m draw]) (hdraw : ∀ k n, 0 < n → draw k n < n)
    (hsmooth : cfg.smooth = none) (hmax : 0 < cfg.maxSamples) (hnd : S.Nodup)
    (hv : ∀ c ∈ S, v c = .applicable) (htwo : TwoCompatible v S)
    (hm : 0 < m) (hmS : m ≤ S.length) (hfit : m * cfg.maxSamples < cfg.tuningInterval)
    (xss : List (List (Int × Bool))) (hlen : ∀ xs ∈ xss, xs.length = cfg.tuningInterval)
    (hrange : ∀ (p : Nat) xs, xss[p]? = some xs → ∀ i < m, chunkEstimate cfg (block cfg.maxSamples i xs) < longMax) :
    ∃ (t' : Tuner RandomState C) (uss : List (List C)),
      tunerRun cfg (S.length + 1) v t xss.flatten = .ok (t', uss.flatten) ∧ uss.length = xss.length ∧ t'.strat.undefined = false ∧
      ∀ (p : Nat) xs used, xss[p]? = some xs → uss[p]? = some used → used.length = cfg.tuningInterval ∧
        ∃ T best, T.length = m ∧ T.Nodup ∧ T ⊆ S ∧ T.head? = S.head? ∧ SampledThen T cfg.maxSamples best used ∧
          Fastest T (fun i => chunkEstimate cfg (block cfg.maxSamples i xs)) best := by
  obtain ⟨n, rfl⟩ : ∃ n, m = n + 1 := ⟨m - 1, by omega⟩
  obtain ⟨c0, S, rfl⟩ : ∃ c S', S = c :: S' := by
    cases S with
    | nil => simp at hmS
    | cons c S => exact ⟨c, S, rfl⟩
  have hn : n ≤ S.length := by simpa using hmS
  obtain ⟨h0, hs⟩ := intervalBegin_init hinit
  obtain ⟨t', uss, a1, a2, a3, a4⟩ := random_intervals hst hdraw hmax hsmooth (fuel := (c0 :: S).length + 1) (by omega) hv htwo hnd hn hfit
    xss 0 t h0 hlen hrange
  refine ⟨t', uss, a1, a2, by rw [a3, hs]; rfl, ?_⟩
  intro p xs used h1 h2
  obtain ⟨b1, best, b2, b3⟩ := a4 p xs used h1 h2
  obtain ⟨d1, d2⟩ := drawn_spec hdraw n (t.strat.draws + p * n) S.reverse (by simpa using hn)
  have hsub : (c0 :: drawn draw (t.strat.draws + p * n) n S.reverse).Subperm (c0 :: S) :=
    (List.subperm_cons _).2 (d2.trans (List.reverse_perm _).subperm)
  exact ⟨b1, _, best, by simp [d1], subperm_nodup hsub hnd, hsub.subset, rfl, b2, b3⟩

/-- Whatever `m` different configurations, the first of them being the first of the search space, can be what is tested. -/
theorem C108_any_order {cfg : (Nat → Nat → Nat) → TunerCfg RandomState C} {m : Nat} {v : C → Verdict} {S : List C}
    {t : (Nat → Nat → Nat) → Tuner RandomState C} (hinit : ∀ draw, Tuner.init (cfg draw) S RandomState.init = .ok (t draw))
    (hst : ∀ draw, (cfg draw).strategies = [randomStrategy m draw])
    (hsmooth : ∀ draw, (cfg draw).smooth = none) (hmax : ∀ draw, 0 < (cfg draw).maxSamples) (hnd : S.Nodup)
    (hv : ∀ c ∈ S, v c = .applicable) (htwo : TwoCompatible v S) (hm : 0 < m)
    (hfit : ∀ draw, m * (cfg draw).maxSamples < (cfg draw).tuningInterval)
    {T : List C} (hT : T.length = m) (hTnd : T.Nodup) (hTS : T ⊆ S) (hhead : T.head? = S.head?) :
    ∃ draw : Nat → Nat → Nat, (∀ k n, 0 < n → draw k n < n) ∧
      ∀ xs : List (Int × Bool), xs.length = (cfg draw).tuningInterval →
        (∀ i < m, chunkEstimate (cfg draw) (block (cfg draw).maxSamples i xs) < longMax) →
        ∃ t' best used, tunerRun (cfg draw) (S.length + 1) v (t draw) xs = .ok (t', used) ∧ SampledThen T (cfg draw).maxSamples best used := by
  obtain ⟨n, rfl⟩ : ∃ n, m = n + 1 := ⟨m - 1, by omega⟩
  obtain ⟨c0, T, rfl⟩ : ∃ c T', T = c :: T' := by
    cases T with
    | nil => simp at hT
    | cons c T => exact ⟨c, T, rfl⟩
  obtain ⟨S, rfl⟩ : ∃ S', S = c0 :: S' := by
    cases S with
    | nil => simp at hhead
    | cons c S => simp at hhead; exact ⟨S, by rw [hhead]⟩
  have hsub : T.Subperm S := (List.subperm_cons c0).1 (List.subperm_of_subset hTnd hTS)
  have hn : T.length = n := by simpa using hT
  obtain ⟨draw, hdraw, hd⟩ := drawn_all n 0 S.reverse T hn (hsub.trans (List.reverse_perm S).symm.subperm)
  refine ⟨draw, hdraw, ?_⟩
  intro xs hlen hrange
  obtain ⟨h0, hs⟩ := intervalBegin_init (hinit draw)
  obtain ⟨t', best, a1, a2, -, -⟩ := random_interval (hst draw) hdraw (hmax draw) (hsmooth draw) (fuel := (c0 :: S).length + 1) (by omega) h0 hv htwo
    hnd (by rw [← hn]; exact hsub.length_le) hlen (hfit draw) hrange
  have hdr : (t draw).strat.draws = 0 := by rw [hs]; rfl
  rw [hdr, hd] at a1
  refine ⟨t', best, _, a1, ?_⟩
  have hgen : ∀ T : List C, (T.flatMap (List.replicate (cfg draw).maxSamples)).length = T.length * (cfg draw).maxSamples := by
    intro T; simp [List.length_flatMap]
  have hf := hfit draw
  unfold SampledThen
  rw [List.length_append, hgen, List.length_replicate, hT]
  congr 2
  omega

/-- With fewer configurations than are to be tested, the choice after the last one is made from an empty queue. -/
theorem C108_violated_small_space {cfg : TunerCfg RandomState C} {m : Nat} {draw : Nat → Nat → Nat} {v : C → Verdict} {S : List C}
    {t : Tuner RandomState C} (hinit : Tuner.init cfg S RandomState.init = .ok t)
    (hst : cfg.strategies = [randomStrategy m draw]) (hdraw : ∀ k n, 0 < n → draw k n < n)
    (hsmooth : cfg.smooth = none) (hmax : 0 < cfg.maxSamples) (hnd : S.Nodup)
    (hv : ∀ c ∈ S, v c = .applicable) (htwo : TwoCompatible v S) (hm : S.length < m)
    (hfit : S.length * cfg.maxSamples < cfg.tuningInterval)
    {xs : List (Int × Bool)} (hlen : xs.length = S.length * cfg.maxSamples)
    (hrange : ∀ i < S.length, chunkEstimate cfg (block cfg.maxSamples i xs) < longMax) (x : Int × Bool) :
    ∃ t' used, tunerRun cfg (S.length + 1) v t (xs ++ [x]) = .ok (t', used) ∧ t'.strat.undefined = true := by
  obtain ⟨h0, hs⟩ := intervalBegin_init hinit
  obtain ⟨c0, S, rfl⟩ : ∃ c S', S = c :: S' := by
    cases S with
    | nil => obtain ⟨a, ha, -⟩ := htwo; simp at ha
    | cons c S => exact ⟨c, S, rfl⟩
  exact random_exhausted hst hdraw hmax hsmooth (by omega) h0 hv htwo hnd hm hlen (by omega) hrange x

end

theorem sortConfigs_of_ascending {S : List (Configuration Rat)} (h : Ascending S) : sortConfigs S = S := by
  unfold sortConfigs
  apply List.mergeSort_of_pairwise
  refine List.Pairwise.imp ?_ h
  intro a b hab
  obtain ⟨h1, h2, -⟩ := C43_less_is_strict_total_order
  rw [Bool.not_eq_true', ← Bool.not_eq_true]
  intro hba
  have := h2 _ _ _ hab hba
  rw [h1] at this
  simp at this

theorem sortConfigs_reverse {S : List (Configuration Rat)} (h : Ascending S) : sortConfigs S.reverse = S := by
  obtain ⟨h1, h2, h3⟩ := C43_less_is_strict_total_order
  unfold sortConfigs
  have hs : S.Pairwise fun a b => (!b.lt a) = true := by
    refine List.Pairwise.imp ?_ h
    intro a b hab
    rw [Bool.not_eq_true', ← Bool.not_eq_true]
    intro hba
    have := h2 _ _ _ hab hba
    rw [h1] at this
    simp at this
  have hp : (S.reverse.mergeSort fun a b => !b.lt a).Pairwise fun a b => (!b.lt a) = true := by
    apply List.pairwise_mergeSort
    · intro a b c hab hbc
      rw [Bool.not_eq_true', ← Bool.not_eq_true] at hab hbc ⊢
      intro hca
      rcases h3 a b with h | h | h
      · exact hbc (h2 _ _ _ hca h)
      · exact hab h
      · subst h; exact hbc hca
    · intro a b
      rw [Bool.or_eq_true, Bool.not_eq_true', Bool.not_eq_true', ← Bool.not_eq_true, ← Bool.not_eq_true]
      by_contra hc
      rw [not_or, not_not, not_not] at hc
      have := h2 _ _ _ hc.1 hc.2
      rw [h1] at this
      simp at this
  refine List.Perm.eq_of_pairwise ?_ hp hs ((List.mergeSort_perm _ _).trans (List.reverse_perm S))
  intro a b _ _ hab hba
  rw [Bool.not_eq_true', ← Bool.not_eq_true] at hab hba
  rcases h3 a b with h | h | h
  · exact absurd h hba
  · exact absurd h hab
  · exact h

/-- Whatever other strategies have done to the queue before: sorting by name neither loses nor adds configurations, no configuration behind another one is
less, and the configuration that is used next, the last one, is the greatest. This holds at the beginning of a phase and while tuning. -/
theorem C108_sorted_queue (q : List (Configuration Rat)) (s : Unit) (i p : Nat) (ev : EvidenceMap (Configuration Rat)) :
    ∀ r ∈ [(sortByName.reset s i p q ev).1.1, (sortByName.optimize s q ev).1.1],
      r.Perm q ∧ r.Pairwise (fun a b => b.lt a = false) ∧ ∀ x, r.getLast? = some x → ∀ c ∈ q, x.lt c = false := by
  obtain ⟨h1, h2, h3⟩ := C43_less_is_strict_total_order
  have hp : (sortConfigs q).Pairwise fun a b => b.lt a = false := by
    have := List.pairwise_mergeSort (le := fun a b : Configuration Rat => !b.lt a) ?_ ?_ q
    · exact this.imp fun hab => by simpa using hab
    · intro a b c hab hbc
      rw [Bool.not_eq_true', ← Bool.not_eq_true] at hab hbc ⊢
      intro hca
      rcases h3 a b with h | h | h
      · exact hbc (h2 _ _ _ hca h)
      · exact hab h
      · subst h; exact hbc hca
    · intro a b
      rw [Bool.or_eq_true, Bool.not_eq_true', Bool.not_eq_true', ← Bool.not_eq_true, ← Bool.not_eq_true]
      by_contra hc
      rw [not_or, not_not, not_not] at hc
      have := h2 _ _ _ hc.1 hc.2
      rw [h1] at this
      simp at this
  have hperm : (sortConfigs q).Perm q := List.mergeSort_perm _ _
  intro r hr
  have hr' : r = sortConfigs q := by
    rcases List.mem_cons.1 hr with rfl | hr
    · rfl
    · exact List.mem_singleton.1 hr
  subst hr'
  refine ⟨hperm, hp, fun x hx c hc => ?_⟩
  obtain ⟨ys, hys⟩ := List.getLast?_eq_some_iff.1 hx
  rw [hys] at hp hperm
  rcases List.mem_append.1 (hperm.mem_iff.2 hc) with hm | hm
  · exact (List.pairwise_append.1 hp).2.2 c hm x (by simp)
  · rw [List.mem_singleton.1 hm]
    exact h1 _

theorem sortByName_narrows {cfg : TunerCfg Unit (Configuration Rat)} (hst : cfg.strategies = [sortByName])
    {v : Configuration Rat → Verdict} {S0 : List (Configuration Rat)} (hasc : Ascending S0) {p : Nat} (htwo : TwoCompatible v S0) :
    Narrows cfg v S0 p (fun _ => true) true (fun q _ => Ascending q) := by
  have hopt : ∀ q s ev, Ascending q → (runOptimize ev cfg.strategies q s).1 = q := by
    intro q s ev hq
    rw [hst]
    simp only [runOptimize, sortByName, sortConfigs_of_ascending hq]
    cases q <;> rfl
  have hraw : ∀ q s ev, Ascending q → (runOptimizeRaw ev cfg.strategies q s).1 = q := by
    intro q s ev hq
    rw [hst]
    simp only [runOptimizeRaw, sortByName, sortConfigs_of_ascending hq]
  refine ⟨?_, fun q s ev h => ⟨hopt q s ev h, h⟩, fun q s ev h => ⟨hraw q s ev h, h⟩, fun q q' _ h hs => List.Pairwise.sublist hs h,
    fun _ _ _ _ h => h, fun _ _ _ _ h => h⟩
  intro S s it ev hS
  have hne : S ≠ [] := by
    obtain ⟨a, ha, -⟩ := Keeps.two hS htwo
    exact List.ne_nil_of_mem ha
  have hS' : Ascending S := by
    obtain ⟨f, rfl, -⟩ := hS
    exact List.Pairwise.filter _ hasc
  have hp : (pick true (fun _ => true) S).reverse = S := by simp [pick]
  rw [hp]
  refine ⟨?_, hS'⟩
  rw [hst]
  simp only [runReset, sortByName, sortConfigs_reverse hS']
  cases S with
  | nil => exact absurd rfl hne
  | cons a S => rfl

/-- What is tested with sorting by name: the applicable configurations in descending order. Side conditions as in C37. -/
theorem C108_sorted_partial {cfg : TunerCfg Unit (Configuration Rat)}
    {v : Configuration Rat → Verdict} {S : List (Configuration Rat)} {s : Unit} {t : Tuner Unit (Configuration Rat)}
    (hinit : Tuner.init cfg S s = .ok t) (hst : cfg.strategies = [sortByName]) (hsmooth : cfg.smooth = none)
    (hmax : 0 < cfg.maxSamples) (hasc : Ascending S)
    (htwo : TwoCompatible v S) (hlast : ∀ x, S.head? = some x → v x = .applicable)
    {T : List (Configuration Rat)} (hmem : ∀ c, c ∈ T ↔ c ∈ S ∧ v c = .applicable) (hdesc : Ascending T.reverse)
    (hfit : T.length * cfg.maxSamples < cfg.tuningInterval)
    (xss : List (List (Int × Bool))) (hlen : ∀ xs ∈ xss, xs.length = cfg.tuningInterval)
    (hrange : ∀ (p : Nat) xs, xss[p]? = some xs → ∀ i < T.length, chunkEstimate cfg (block cfg.maxSamples i xs) < longMax) :
    ∃ (t' : Tuner Unit (Configuration Rat)) (uss : List (List (Configuration Rat))),
      tunerRun cfg (S.length + 1) v t xss.flatten = .ok (t', uss.flatten) ∧ uss.length = xss.length ∧
      ∀ (p : Nat) xs used, xss[p]? = some xs → uss[p]? = some used → used.length = cfg.tuningInterval ∧
        ∃ best, SampledThen T cfg.maxSamples best used ∧
          Fastest T (fun i => chunkEstimate cfg (block cfg.maxSamples i xs)) best := by
  have hpick : pick true (fun _ => true) S = S.reverse := by simp [pick]
  have hT : T = S.reverse.filter (fun c => v c = .applicable) := by
    have h1 : Ascending (S.filter (fun c => v c = .applicable)) := List.Pairwise.filter _ hasc
    have : T.reverse = S.filter (fun c => v c = .applicable) := by
      obtain ⟨g1, g2, g3⟩ := C43_less_is_strict_total_order
      refine List.Perm.eq_of_pairwise ?_ hdesc h1 ((List.perm_ext_iff_of_nodup (Ascending.nodup hdesc) (Ascending.nodup h1)).2 ?_)
      · intro a b _ _ hab hba
        have := g2 _ _ _ hab hba
        rw [g1] at this
        simp at this
      · intro c; simp [hmem]
    rw [List.filter_reverse, ← this, List.reverse_reverse]
  have htwo' : TwoCompatible v (pick true (fun _ => true) S) := by
    rw [hpick]
    obtain ⟨a, ha, b, hb, h⟩ := htwo
    exact ⟨a, by simpa using ha, b, by simpa using hb, h⟩
  have h0 := intervalStart_init (v := v) hinit
  have := narrowed_intervals (apps := fun _ => T) hmax hsmooth (Ascending.nodup hasc)
    (k := fun _ _ => true) (rev := fun _ => true) (Inv := fun _ q _ => Ascending q)
    (fun p => sortByName_narrows hst hasc htwo)
    (fun _ => htwo') (by intro p x hx; rw [hpick, List.getLast?_reverse] at hx; exact hlast x hx)
    (by intro p; simp only [hpick, hT]) (fun _ => hfit)
    xss 0 t h0 hlen (by simpa using hrange)
  simpa using this

/-! ### The hypotheses are met -/

/-- Random search over four configurations, of which three are tested with one sample. -/
def exRandomCfg (draw : Nat → Nat → Nat) : TunerCfg RandomState Nat :=
  { strategies := [randomStrategy 3 draw], maxSamples := 1, tuningInterval := 5, smooth := none, rebuildFrequency := 1, selector := .fastestAbs }

def exDraw (k n : Nat) : Nat := (k + 1) % n

/-- Four configurations, of which three are tested: in the first phase 10, 30, 40 and then the fastest of them, in the second 10, 40, 20. -/
example : (match Tuner.init (exRandomCfg exDraw) [10, 20, 30, 40] RandomState.init with
      | .ok t => (match tunerRun (exRandomCfg exDraw) 5 (fun _ => .applicable) t
          [(9, true), (5, true), (7, true), (4, true), (9, true), (9, true), (9, true), (7, true), (4, true), (9, true)] with
        | .ok r => some (r.2, r.1.strat.undefined)
        | _ => none)
      | _ => none) = some ([10, 30, 40, 30, 30, 10, 40, 20, 20, 20], false) := by
  decide +kernel

example : (∀ k n, 0 < n → exDraw k n < n) ∧ [10, 20, 30, 40].Nodup ∧ TwoCompatible (fun _ => .applicable) [10, 20, 30, 40] ∧
    3 ≤ [10, 20, 30, 40].length ∧ 3 * (exRandomCfg exDraw).maxSamples < (exRandomCfg exDraw).tuningInterval :=
  ⟨fun _ _ h => Nat.mod_lt _ h, by decide, ⟨10, by decide, 20, by decide, by decide, by decide, by decide⟩, by decide, by decide⟩

/-- Two configurations only: choosing the third is undefined. -/
example : (match Tuner.init (exRandomCfg exDraw) [10, 20] RandomState.init with
      | .ok t => (match tunerRun (exRandomCfg exDraw) 3 (fun _ => .applicable) t [(9, true), (5, true), (7, true)] with
        | .ok r => some (r.2, r.1.strat.undefined)
        | _ => none)
      | _ => none) = some ([10, 20, 20], true) := by
  decide +kernel

def exSortCfg : TunerCfg Unit (Configuration Rat) :=
  { strategies := [sortByName], maxSamples := 1, tuningInterval := 6, smooth := none, rebuildFrequency := 1, selector := .fastestAbs }

/-- Five configurations, of which one is not applicable, are tested from the largest to the smallest. -/
example : ∃ (t t' : Tuner Unit (Configuration Rat)) (best : Configuration Rat) (used : List (Configuration Rat)), Tuner.init exSortCfg exSpace () = .ok t ∧
    tunerRun exSortCfg 6 exRuleV t [(9, true), (5, true), (7, true), (4, true), (9, true), (9, true)] = .ok (t', used) ∧
    SampledThen [exC 2 2 0 0, exC 1 1 0 0, exC 0 0 1 0, exC 0 0 0 0] 1 best used := by
  obtain ⟨t, ht⟩ : ∃ t, Tuner.init exSortCfg exSpace () = .ok t := ⟨_, rfl⟩
  obtain ⟨t', uss, a1, a2, a3⟩ := C108_sorted_partial (v := exRuleV) (T := [exC 2 2 0 0, exC 1 1 0 0, exC 0 0 1 0, exC 0 0 0 0]) ht rfl rfl (by decide)
    (by unfold Ascending; decide +kernel)
    ⟨exC 0 0 0 0, by decide +kernel, exC 0 0 1 0, by decide +kernel, by decide +kernel, by decide +kernel, by decide +kernel⟩
    (by intro x hx; simp only [exSpace, List.head?_cons, Option.some.injEq] at hx; subst hx; decide +kernel)
    (by
      have h : ∀ c ∈ exSpace, c ∈ [exC 2 2 0 0, exC 1 1 0 0, exC 0 0 1 0, exC 0 0 0 0] ↔ exRuleV c = .applicable := by decide +kernel
      have h' : ∀ c ∈ [exC 2 2 0 0, exC 1 1 0 0, exC 0 0 1 0, exC 0 0 0 0], c ∈ exSpace := by decide +kernel
      exact fun c => ⟨fun hc => ⟨h' c hc, (h c (h' c hc)).1 hc⟩, fun hc => (h c hc.1).2 hc.2⟩)
    (by unfold Ascending; decide +kernel) (by decide)
    [[(9, true), (5, true), (7, true), (4, true), (9, true), (9, true)]] (by decide)
    (by
      intro p xs hp
      cases p with
      | zero => simp only [List.getElem?_cons_zero, Option.some.injEq] at hp; subst hp; decide +kernel
      | succ p => simp at hp)
  obtain ⟨used, rfl⟩ : ∃ u, uss = [u] := List.length_eq_one_iff.1 a2
  obtain ⟨-, best, h, -⟩ := a3 0 _ used rfl rfl
  exact ⟨t, t', best, used, ht, by rw [List.flatten_singleton, List.flatten_singleton] at a1; exact a1, h⟩

end Verif
