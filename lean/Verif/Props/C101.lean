import Mathlib.Data.List.Induction
import Verif.Lemmas.RuleBasedTuning
import Verif.Lemmas.NarrowedIntervals
import Verif.Props.C43
/-!
# C101 — Rule-based tuning tests what the rules leave and finds the fastest configuration

* `C101_tested_partial`: in every tuning interval exactly the applicable configurations that no applicable rule calls worse are
  tested (all of them if the rules leave none), then the fastest of them is used. Side conditions as in C37.
* `C101_fastest_overall_partial`: if the rules are right, and everything they call worse has a better counterpart in the search
  space, then the configuration used is the fastest of *all* applicable configurations. **Without the counterparts the code
  violates this** (`C101_violated_no_counterpart`): a configuration is removed because a rule calls it worse than
  configurations that are not available, or that do not agree with it in the properties the rule demands.
* `C101_verify_tests_all_partial`: the verify mode tests everything.
* `C101_verify_reports`: in the first tuning phase it reports exactly the contradictions between rules and measurements,
  if no configuration matches both sides of one rule. **Violations**: it misses contradictions otherwise
  (`C101_violated_overlap`), and in later phases it compares with times of earlier phases
  (`C101_violated_stale_times`), although other rules may hold then.
* `C101_verify_saved_time`: the time reported as avoidable is that of the configurations that the rules remove.
-/
namespace Verif
open Spec

theorem Ascending.nodup {S : List (Configuration Rat)} (h : Ascending S) : S.Nodup := by
  unfold Ascending at h
  refine h.imp ?_
  intro a b hab he
  subst he
  rw [C43_less_is_strict_total_order.1 a] at hab
  cases hab

theorem rule_intervals {cfg : TunerCfg RuleState (Configuration Rat)} {verify : Bool} {orders : Nat → List CfgOrder}
    (hst : cfg.strategies = [ruleStrategy verify orders]) (hmax : 0 < cfg.maxSamples) (hsm : cfg.smooth = none)
    {v : Configuration Rat → Verdict} {S : List (Configuration Rat)} (hasc : Ascending S) (hnd : S.Nodup)
    (htwo : ∀ p, TwoCompatible v (S.filter (tested verify (orders p) S)))
    (hlast : ∀ p x, (S.filter (tested verify (orders p) S)).getLast? = some x → v x = .applicable)
    {apps : Nat → List (Configuration Rat)}
    (happs : ∀ p, apps p = (S.filter (tested verify (orders p) S)).filter (fun c => v c = .applicable))
    (hfit : ∀ p, (apps p).length * cfg.maxSamples < cfg.tuningInterval) :
    ∀ (xss : List (List (Int × Bool))) (p : Nat) (t : Tuner RuleState (Configuration Rat)), IntervalStart cfg v S p t →
      (∀ xs ∈ xss, xs.length = cfg.tuningInterval) →
      (∀ n xs, xss[n]? = some xs → ∀ i < (apps (p + n)).length, chunkEstimate cfg (block cfg.maxSamples i xs) < longMax) →
      ∃ (t' : Tuner RuleState (Configuration Rat)) (uss : List (List (Configuration Rat))), tunerRun cfg (S.length + 1) v t xss.flatten = .ok (t', uss.flatten) ∧ uss.length = xss.length ∧
        ∀ n xs used, xss[n]? = some xs → uss[n]? = some used → used.length = cfg.tuningInterval ∧
          ∃ best, SampledThen (apps (p + n)) cfg.maxSamples best used ∧
            Fastest (apps (p + n)) (fun i => chunkEstimate cfg (block cfg.maxSamples i xs)) best :=
  narrowed_intervals hmax hsm hnd (k := fun p => tested verify (orders p) S) (rev := fun _ => false)
    (fun p => ruleStrategy_narrows hst hasc (htwo p)) htwo hlast happs hfit

/-- **C101.** In tuning phase `p`, `T p` being what the rules applicable in this phase leave of the search space: each
applicable configuration of `T p` is used in `maxSamples` consecutive iterations; the remaining iterations of the interval use
one with the smallest cost of them. For all rules, live information (`orders` is arbitrary), search spaces, verdicts,
measurements and numbers of intervals. -/
theorem C101_tested_partial {cfg : TunerCfg RuleState (Configuration Rat)} {orders : Nat → List CfgOrder}
    {v : Configuration Rat → Verdict} {S : List (Configuration Rat)} {s : RuleState} {t : Tuner RuleState (Configuration Rat)}
    (hinit : Tuner.init cfg S s = .ok t) (hst : cfg.strategies = [ruleStrategy false orders]) (hsmooth : cfg.smooth = none)
    (hmax : 0 < cfg.maxSamples) (hasc : Ascending S)
    {T : Nat → List (Configuration Rat)} (hT : ∀ p, ToTest (orders p) S (T p))
    (htwo : ∀ p, TwoCompatible v (T p)) (hlast : ∀ p x, (T p).getLast? = some x → v x = .applicable)
    (hfit : ∀ p, ((T p).filter (fun c => v c = .applicable)).length * cfg.maxSamples < cfg.tuningInterval)
    (xss : List (List (Int × Bool))) (hlen : ∀ xs ∈ xss, xs.length = cfg.tuningInterval)
    (hrange : ∀ p xs, xss[p]? = some xs → ∀ i < ((T p).filter (fun c => v c = .applicable)).length,
      chunkEstimate cfg (block cfg.maxSamples i xs) < longMax) :
    ∃ (t' : Tuner RuleState (Configuration Rat)) (uss : List (List (Configuration Rat))),
      tunerRun cfg (S.length + 1) v t xss.flatten = .ok (t', uss.flatten) ∧ uss.length = xss.length ∧
      ∀ p xs used, xss[p]? = some xs → uss[p]? = some used → used.length = cfg.tuningInterval ∧
        ∃ best, SampledThen ((T p).filter (fun c => v c = .applicable)) cfg.maxSamples best used ∧
          Fastest ((T p).filter (fun c => v c = .applicable)) (fun i => chunkEstimate cfg (block cfg.maxSamples i xs)) best := by
  have hset := Ascending.nodup hasc
  have hTe : ∀ p, T p = S.filter (tested false (orders p) S) := fun p => toTest_unique hset (hT p) (toTest_tested _ _)
  have h0 := intervalStart_init (v := v) hinit
  have := rule_intervals (apps := fun p => (T p).filter (fun c => v c = .applicable)) hst hmax hsmooth hasc hset
    (by intro p; rw [← hTe]; exact htwo p) (by intro p; rw [← hTe]; exact hlast p) (by intro p; simp only [hTe p]) hfit
    xss 0 t h0 hlen (by simpa using hrange)
  simpa using this

/-- In verify mode everything is tested. -/
theorem C101_verify_tests_all_partial {cfg : TunerCfg RuleState (Configuration Rat)} {orders : Nat → List CfgOrder}
    {v : Configuration Rat → Verdict} {S : List (Configuration Rat)} {s : RuleState} {t : Tuner RuleState (Configuration Rat)}
    (hinit : Tuner.init cfg S s = .ok t) (hst : cfg.strategies = [ruleStrategy true orders]) (hsmooth : cfg.smooth = none)
    (hmax : 0 < cfg.maxSamples) (hasc : Ascending S)
    (htwo : TwoCompatible v S) (hlast : ∀ x, S.getLast? = some x → v x = .applicable)
    (hfit : (S.filter (fun c => v c = .applicable)).length * cfg.maxSamples < cfg.tuningInterval)
    (xss : List (List (Int × Bool))) (hlen : ∀ xs ∈ xss, xs.length = cfg.tuningInterval)
    (hrange : ∀ (p : Nat) (xs : List (Int × Bool)), xss[p]? = some xs → ∀ i < (S.filter (fun c => v c = .applicable)).length,
      chunkEstimate cfg (block cfg.maxSamples i xs) < longMax) :
    ∃ (t' : Tuner RuleState (Configuration Rat)) (uss : List (List (Configuration Rat))),
      tunerRun cfg (S.length + 1) v t xss.flatten = .ok (t', uss.flatten) ∧ uss.length = xss.length ∧
      ∀ (p : Nat) (xs : List (Int × Bool)) (used : List (Configuration Rat)), xss[p]? = some xs → uss[p]? = some used →
        used.length = cfg.tuningInterval ∧
        ∃ best, SampledThen (S.filter (fun c => v c = .applicable)) cfg.maxSamples best used ∧
          Fastest (S.filter (fun c => v c = .applicable)) (fun i => chunkEstimate cfg (block cfg.maxSamples i xs)) best := by
  have hset := Ascending.nodup hasc
  have hTe : ∀ p, S.filter (tested true (orders p) S) = S := by intro p; simp [tested]
  have h0 := intervalStart_init (v := v) hinit
  have := rule_intervals (apps := fun _ => S.filter (fun c => v c = .applicable)) hst hmax hsmooth hasc hset
    (by intro p; rw [hTe]; exact htwo) (by intro p; rw [hTe]; exact hlast) (by intro p; simp only [hTe p]) (fun _ => hfit)
    xss 0 t h0 hlen hrange
  simpa using this

/-- Everything the rules call worse has a better counterpart among the applicable configurations. -/
def HasCounterparts (orders : List CfgOrder) (v : Configuration Rat → Verdict) (S : List (Configuration Rat)) : Prop :=
  ∀ o ∈ orders, ∀ c ∈ S, v c = .applicable → Matches o.smaller c → ∃ g ∈ S, v g = .applicable ∧ g ≠ c ∧ SaysBetter o g c

/-- Right rules with counterparts leave a configuration that is at least as fast. -/
theorem survivor {orders : List CfgOrder} {v : Configuration Rat → Verdict} {S T : List (Configuration Rat)}
    (hT : ToTest orders S T) {time : Configuration Rat → Int} (hdist : ∀ a ∈ S, ∀ b ∈ S, time a = time b → a = b)
    (htrue : RulesTrue orders time) (hcount : HasCounterparts orders v S) :
    ∀ c ∈ S, v c = .applicable → ∃ d ∈ T, v d = .applicable ∧ time d ≤ time c := by
  by_contra hcon
  push Not at hcon
  obtain ⟨c0, hc0, hv0, hbad0⟩ := hcon
  -- a fastest counterexample
  have hwf : ∀ n : Nat, ∀ c ∈ S, v c = .applicable → (∀ d ∈ T, v d = .applicable → time c < time d) →
      (S.filter (fun x => decide (time x < time c))).length = n → False := by
    intro n
    induction n using Nat.strong_induction_on with
    | _ n ih =>
      intro c hc hv hbad hn
      by_cases hw : CalledWorse orders c
      · obtain ⟨o, ho, hm⟩ := hw
        obtain ⟨g, hg, hvg, hne, hsb⟩ := hcount o ho c hc hv hm
        have hlt : time g < time c := by
          rcases lt_or_eq_of_le (htrue o ho g c hsb) with h | h
          · exact h
          · exact absurd (hdist g hg c hc h) hne
        refine ih (S.filter (fun x => decide (time x < time g))).length ?_ g hg hvg ?_ rfl
        · rw [← hn]
          have h1 : (S.filter (fun x => decide (time x < time g))) =
              (S.filter (fun x => decide (time x < time c))).filter (fun x => decide (time x < time g)) := by
            rw [List.filter_filter]
            apply List.filter_congr
            intro x _
            by_cases hx : time x < time g
            · simp [hx, lt_trans hx hlt]
            · simp [hx]
          rw [h1]
          apply List.length_filter_lt_length_iff_exists.2
          exact ⟨g, List.mem_filter.2 ⟨hg, by simpa using hlt⟩, by simp⟩
        · intro d hd hvd
          exact lt_trans hlt (hbad d hd hvd)
      · have hcT : c ∈ T := (hT.mem c).2 ⟨hc, fun h => absurd h hw⟩
        exact absurd (hbad c hcT hv) (lt_irrefl _)
  exact hwf _ c0 hc0 hv0 hbad0 rfl

/-- **C101.** If in phase `p` the rules are right about the run times `time p`, everything they call worse has a better
counterpart in the search space, no two configurations take the same time, and the measurements show these times, then the
configuration used after the tuning phase is the fastest of all applicable configurations, tested or not. -/
theorem C101_fastest_overall_partial {cfg : TunerCfg RuleState (Configuration Rat)} {orders : Nat → List CfgOrder}
    {v : Configuration Rat → Verdict} {S : List (Configuration Rat)} {s : RuleState} {t : Tuner RuleState (Configuration Rat)}
    (hinit : Tuner.init cfg S s = .ok t) (hst : cfg.strategies = [ruleStrategy false orders]) (hsmooth : cfg.smooth = none)
    (hmax : 0 < cfg.maxSamples) (hasc : Ascending S)
    {T : Nat → List (Configuration Rat)} (hT : ∀ p, ToTest (orders p) S (T p))
    (htwo : ∀ p, TwoCompatible v (T p)) (hlast : ∀ p x, (T p).getLast? = some x → v x = .applicable)
    (hfit : ∀ p, ((T p).filter (fun c => v c = .applicable)).length * cfg.maxSamples < cfg.tuningInterval)
    {time : Nat → Configuration Rat → Int} (hdist : ∀ p, ∀ a ∈ S, ∀ b ∈ S, time p a = time p b → a = b)
    (hbound : ∀ p c, time p c < longMax)
    (htrue : ∀ p, RulesTrue (orders p) (time p)) (hcount : ∀ p, HasCounterparts (orders p) v S)
    (xss : List (List (Int × Bool))) (hlen : ∀ xs ∈ xss, xs.length = cfg.tuningInterval)
    (hmeasured : ∀ p xs, xss[p]? = some xs → ∀ i c, ((T p).filter (fun c => v c = .applicable))[i]? = some c →
      chunkEstimate cfg (block cfg.maxSamples i xs) = time p c) :
    ∃ (t' : Tuner RuleState (Configuration Rat)) (uss : List (List (Configuration Rat))),
      tunerRun cfg (S.length + 1) v t xss.flatten = .ok (t', uss.flatten) ∧ uss.length = xss.length ∧
      ∀ p xs used, xss[p]? = some xs → uss[p]? = some used →
        ∃ best ∈ S, v best = .applicable ∧ (∀ c ∈ S, v c = .applicable → time p best ≤ time p c) ∧
          SampledThen ((T p).filter (fun c => v c = .applicable)) cfg.maxSamples best used := by
  obtain ⟨t', uss, h1, h2, h3⟩ := C101_tested_partial hinit hst hsmooth hmax hasc hT htwo hlast hfit xss hlen (by
    intro p xs hp i hi
    rw [hmeasured p xs hp i _ (List.getElem?_eq_getElem hi)]
    exact hbound _ _)
  refine ⟨t', uss, h1, h2, ?_⟩
  intro p xs used hp hu
  obtain ⟨-, best, hs, i, hi, hmin⟩ := h3 p xs used hp hu
  have hbm := List.mem_filter.1 (List.mem_of_getElem? hi)
  refine ⟨best, (hT p).sublist.subset hbm.1, by simpa using hbm.2, ?_, hs⟩
  intro c hc hvc
  obtain ⟨d, hd, hvd, hle⟩ := survivor (hT p) (hdist p) (htrue p) (hcount p) c hc hvc
  obtain ⟨j, hj, hjd⟩ := List.mem_iff_getElem.1 (List.mem_filter.2 ⟨hd, by simpa using hvd⟩ :
    d ∈ (T p).filter (fun c => decide (v c = .applicable)))
  have h4 := hmin j hj
  simp only at h4
  rw [hmeasured p xs hp i best hi, hmeasured p xs hp j d (by rw [List.getElem?_eq_getElem hj, hjd])] at h4
  exact le_trans h4 hle

/-! ### Verify mode -/

/-- The evidence of a phase, each followed by the request for the next configuration from the queue. -/
def verifyPhase (s : RuleState) (es : List (Configuration Rat × Int × List (Configuration Rat))) : RuleState :=
  es.foldl (fun s e => ((s.addEvidence true e.1 e.2.1).optimize true e.2.2).2) s

theorem setTime_new {m : List (Configuration Rat × Int)} {c : Configuration Rat} {x : Int} (h : c ∉ m.map Prod.fst) :
    setTime m c x = m ++ [(c, x)] := by
  induction m with
  | nil => rfl
  | cons a m ih =>
    obtain ⟨k, y⟩ := a
    simp only [List.map_cons, List.mem_cons, not_or] at h
    simp only [setTime, if_neg (Ne.symm h.1), ih h.2, List.cons_append]

theorem verify_optimize (s : RuleState) (q : List (Configuration Rat)) : ((s.optimize true q).2).errors = s.errors ∧
    ((s.optimize true q).2).traversalTimes = s.traversalTimes ∧ ((s.optimize true q).2).active = s.active ∧
    ((s.optimize true q).2).lastApplicable = s.active ∧ ((s.optimize true q).2).wouldHaveSkipped = s.wouldHaveSkipped ∧
    ((s.optimize true q).2).removed = (q.filter (ruledOut s.active)).foldl (fun r c => setInsert c r) s.removed := by
  unfold RuleState.optimize
  simp only
  split_ifs
  all_goals exact ⟨rfl, rfl, rfl, rfl, rfl, rfl⟩

/-- The contradictions between rules and measured times. -/
def Contradiction (orders : List CfgOrder) (times : List (Configuration Rat × Int)) (e : RuleError) : Prop :=
  e.order ∈ orders ∧ (e.actuallyBetter, e.actuallyBetterTime) ∈ times ∧ (e.shouldBeBetter, e.shouldBeBetterTime) ∈ times ∧
    SaysBetter e.order e.shouldBeBetter e.actuallyBetter ∧ e.actuallyBetterTime < e.shouldBeBetterTime

theorem verify_step {orders : List CfgOrder} {times : List (Configuration Rat × Int)} {c : Configuration Rat} {x : Int}
    (hdisj : ∀ o ∈ orders, ¬ (Matches o.smaller c ∧ Matches o.greater c)) (e : RuleError) :
    (Contradiction orders times e ∨ e ∈ orders.flatMap (verifyOrder (times ++ [(c, x)]) c x)) ↔
      Contradiction orders (times ++ [(c, x)]) e := by
  obtain ⟨o, a, ta, b, tb⟩ := e
  unfold Contradiction
  simp only
  constructor
  · rintro (⟨h1, h2, h3, h4, h5⟩ | h)
    · exact ⟨h1, List.mem_append_left _ h2, List.mem_append_left _ h3, h4, h5⟩
    · obtain ⟨o', ho', h⟩ := List.mem_flatMap.1 h
      unfold verifyOrder at h
      split_ifs at h with m1 m2
      · obtain ⟨⟨y, ty⟩, hy, he⟩ := List.mem_map.1 h
        obtain ⟨hy1, hy2⟩ := List.mem_filter.1 hy
        simp only [Bool.and_eq_true, decide_eq_true_eq, matches_iff, same_iff] at hy2
        injection he with e1 e2 e3 e4 e5
        subst e1 e2 e3 e4 e5
        exact ⟨ho', by simp, hy1, ⟨hy2.1.1, matches_iff.1 m1, fun z hz => agreeIn_symm.1 (hy2.1.2 z hz)⟩, hy2.2⟩
      · obtain ⟨⟨y, ty⟩, hy, he⟩ := List.mem_map.1 h
        obtain ⟨hy1, hy2⟩ := List.mem_filter.1 hy
        simp only [Bool.and_eq_true, decide_eq_true_eq, matches_iff, same_iff] at hy2
        injection he with e1 e2 e3 e4 e5
        subst e1 e2 e3 e4 e5
        exact ⟨ho', hy1, by simp, ⟨matches_iff.1 m2, hy2.1.1, hy2.1.2⟩, hy2.2⟩
      · simp at h
  · rintro ⟨h1, h2, h3, h4, h5⟩
    rw [List.mem_append, List.mem_singleton] at h2 h3
    have hnot := hdisj o h1
    rcases h2 with h2 | h2
    · rcases h3 with h3 | h3
      · exact .inl ⟨h1, h2, h3, h4, h5⟩
      · injection h3 with e1 e2
        subst e1 e2
        right
        refine List.mem_flatMap.2 ⟨o, h1, ?_⟩
        unfold verifyOrder
        rw [if_neg (fun hh => hnot ⟨matches_iff.1 hh, h4.left⟩), if_pos (matches_iff.2 h4.left)]
        refine List.mem_map.2 ⟨(a, ta), List.mem_filter.2 ⟨List.mem_append_left _ h2, ?_⟩, rfl⟩
        simp only [Bool.and_eq_true, decide_eq_true_eq, matches_iff, same_iff]
        exact ⟨⟨h4.right, h4.same⟩, h5⟩
    · injection h2 with e1 e2
      subst e1 e2
      rcases h3 with h3 | h3
      · right
        refine List.mem_flatMap.2 ⟨o, h1, ?_⟩
        unfold verifyOrder
        rw [if_pos (matches_iff.2 h4.right)]
        refine List.mem_map.2 ⟨(b, tb), List.mem_filter.2 ⟨List.mem_append_left _ h3, ?_⟩, rfl⟩
        simp only [Bool.and_eq_true, decide_eq_true_eq, matches_iff, same_iff]
        exact ⟨⟨h4.left, fun z hz => agreeIn_symm.1 (h4.same z hz)⟩, h5⟩
      · injection h3 with e1 e2
        subst e1 e2
        exact absurd h5 (lt_irrefl _)

theorem verify_reports_aux {orders : List CfgOrder} : ∀ (es : List (Configuration Rat × Int × List (Configuration Rat))) (s : RuleState),
    s.active = orders → s.lastApplicable = orders → (s.traversalTimes.map Prod.fst ++ es.map Prod.fst).Nodup →
    (∀ e ∈ es, ∀ o ∈ orders, ¬ (Matches o.smaller e.1 ∧ Matches o.greater e.1)) →
    (∀ r, r ∈ s.errors ↔ Contradiction orders s.traversalTimes r) →
    ∀ r, r ∈ (verifyPhase s es).errors ↔ Contradiction orders (s.traversalTimes ++ es.map fun e => (e.1, e.2.1)) r := by
  intro es
  induction es with
  | nil => intro s _ _ _ _ h r; simpa [verifyPhase] using h r
  | cons e es ih =>
    intro s h1 h2 hnd hdisj h r
    obtain ⟨c, x, q⟩ := e
    have hnew : c ∉ s.traversalTimes.map Prod.fst := by
      intro hc
      rw [List.map_cons, List.nodup_append] at hnd
      exact hnd.2.2 c hc c (by simp) rfl
    obtain ⟨o1, o2, o3, o4, -, -⟩ := verify_optimize (s.addEvidence true c x) q
    have ht : (s.addEvidence true c x).traversalTimes = s.traversalTimes ++ [(c, x)] := setTime_new hnew
    have he : (s.addEvidence true c x).errors = s.errors ++ orders.flatMap (verifyOrder (s.traversalTimes ++ [(c, x)]) c x) := by
      show (if true = true then s.errors ++ s.lastApplicable.flatMap (verifyOrder (setTime s.traversalTimes c x) c x) else s.errors) = _
      rw [if_pos rfl, h2, setTime_new hnew]
    have hact : (s.addEvidence true c x).active = orders := h1
    rw [ht] at o2
    rw [he] at o1
    rw [hact] at o3 o4
    have := ih ((s.addEvidence true c x).optimize true q).2 o3 o4 (by
        rw [o2]
        simpa using hnd)
      (fun e he => hdisj e (by simp [he])) (by
        intro r
        rw [o1, o2, List.mem_append, h r]
        exact verify_step (hdisj (c, x, q) (by simp)) r) r
    rw [o2] at this
    show r ∈ (verifyPhase _ es).errors ↔ _
    rw [this]
    simp

/-- **C101, verify mode.** In the first tuning phase (nothing measured or reported before), when every configuration is measured
once and matches at most one side of each rule, exactly the contradictions are reported: a rule says that one measured
configuration is better than another, but it took longer. -/
theorem C101_verify_reports {orders : List CfgOrder} {S queue : List (Configuration Rat)}
    {es : List (Configuration Rat × Int × List (Configuration Rat))} (honce : (es.map Prod.fst).Nodup)
    (hdisj : ∀ e ∈ es, ∀ o ∈ orders, ¬ (Matches o.smaller e.1 ∧ Matches o.greater e.1)) (r : RuleError) :
    r ∈ (verifyPhase ((RuleState.init S).reset true orders queue).2 es).errors ↔
      Contradiction orders (es.map fun e => (e.1, e.2.1)) r := by
  unfold RuleState.reset
  obtain ⟨o1, o2, o3, o4, -, -⟩ := verify_optimize
    { RuleState.init S with active := orders, tuningTime := 0, wouldHaveSkipped := 0, removed := [], rulesTooHarsh := false } queue
  have h2 : (RuleState.init S).traversalTimes = [] := rfl
  have := verify_reports_aux (orders := orders) es _ o3 o4 (by rw [o2]; simpa [RuleState.init] using honce) hdisj
    (by
      intro r
      rw [o1, o2]
      simp [RuleState.init, Contradiction]) r
  rw [o2] at this
  simpa [RuleState.init] using this

/-- What reaches the strategy in verify mode: a measurement, followed by `optimizeSuggestions` with a queue, or the begin of a phase with the orders that
are applicable then. -/
inductive RuleEvent
  | measure (c : Configuration Rat) (value : Int) (queue : List (Configuration Rat))
  | phase (orders : List CfgOrder) (queue : List (Configuration Rat))

def verifyEvent (s : RuleState) : RuleEvent → RuleState
  | .measure c x q => ((s.addEvidence true c x).optimize true q).2
  | .phase orders q => (s.reset true orders q).2

/-- The last measurement of `c` in a history. -/
def lastMeasured (hs : List RuleEvent) (c : Configuration Rat) : Option Int :=
  (hs.filterMap fun e => match e with
    | .measure c' x _ => if c' = c then some x else none
    | .phase _ _ => none).getLast?

theorem setTime_spec {m : List (Configuration Rat × Int)} (h : (m.map Prod.fst).Nodup) (c : Configuration Rat) (x : Int) :
    ((setTime m c x).map Prod.fst).Nodup ∧ ∀ k v, (k, v) ∈ setTime m c x ↔ if k = c then v = x else (k, v) ∈ m := by
  have hkeys : ∀ m : List (Configuration Rat × Int), ∀ k ∈ (setTime m c x).map Prod.fst, k = c ∨ k ∈ m.map Prod.fst := by
    intro m
    induction m with
    | nil => intro k hk; left; simpa [setTime] using hk
    | cons a m ih =>
      obtain ⟨k', y⟩ := a
      intro k hk
      simp only [setTime] at hk
      split_ifs at hk with he
      · right; simpa using hk
      · simp only [List.map_cons, List.mem_cons] at hk
        rcases hk with hk | hk
        · right; simp [hk]
        · rcases ih k hk with h | h
          · exact .inl h
          · right; simp [h]
  induction m with
  | nil =>
    refine ⟨by simp [setTime], fun k v => ?_⟩
    simp only [setTime, List.mem_singleton, Prod.mk.injEq, List.not_mem_nil]
    split_ifs with hk
    · simp [hk]
    · simp [hk]
  | cons a m ih =>
    obtain ⟨k', y⟩ := a
    rw [List.map_cons, List.nodup_cons] at h
    obtain ⟨i1, i2⟩ := ih h.2
    simp only [setTime]
    split_ifs with he
    · subst he
      refine ⟨by simpa using h, fun k v => ?_⟩
      rw [List.mem_cons]
      split_ifs with hk
      · subst hk
        constructor
        · rintro (hv | hv)
          · simpa using hv
          · exact absurd (List.mem_map.2 ⟨_, hv, rfl⟩) h.1
        · rintro rfl; simp
      · rw [List.mem_cons]
        simp [hk]
    · refine ⟨?_, fun k v => ?_⟩
      · rw [List.map_cons, List.nodup_cons]
        refine ⟨fun hm => ?_, i1⟩
        rcases hkeys m _ hm with h' | h'
        · exact he h'
        · exact h.1 h'
      · rw [List.mem_cons, i2]
        split_ifs with hk
        · subst hk
          constructor
          · rintro (hv | hv)
            · exact absurd (congrArg Prod.fst hv).symm he
            · exact hv
          · exact .inr
        · rw [List.mem_cons]

theorem verify_times (S : List (Configuration Rat)) (hs : List RuleEvent) :
    (((hs.foldl verifyEvent (RuleState.init S)).traversalTimes).map Prod.fst).Nodup ∧
    ∀ k v, (k, v) ∈ (hs.foldl verifyEvent (RuleState.init S)).traversalTimes ↔ lastMeasured hs k = some v := by
  induction hs using List.reverseRecOn with
  | nil => exact ⟨by simp [RuleState.init], by simp [RuleState.init, lastMeasured]⟩
  | append_singleton hs e ih =>
    obtain ⟨i1, i2⟩ := ih
    rw [List.foldl_append, List.foldl_cons, List.foldl_nil]
    cases e with
    | measure c x q =>
      obtain ⟨-, o2, -⟩ := verify_optimize ((hs.foldl verifyEvent (RuleState.init S)).addEvidence true c x) q
      simp only [verifyEvent, o2]
      have ht : ((hs.foldl verifyEvent (RuleState.init S)).addEvidence true c x).traversalTimes =
        setTime (hs.foldl verifyEvent (RuleState.init S)).traversalTimes c x := rfl
      rw [ht]
      obtain ⟨s1, s2⟩ := setTime_spec i1 c x
      refine ⟨s1, fun k v => ?_⟩
      rw [s2]
      unfold lastMeasured at i2 ⊢
      rw [List.filterMap_append, List.getLast?_append]
      by_cases hk : k = c
      · subst hk
        simp [eq_comm]
      · rw [if_neg hk, i2]
        simp [Ne.symm hk]
    | phase orders q =>
      obtain ⟨-, o2, -⟩ := verify_optimize
        { hs.foldl verifyEvent (RuleState.init S) with active := orders, tuningTime := 0, wouldHaveSkipped := 0, removed := [], rulesTooHarsh := false } q
      simp only [verifyEvent, RuleState.reset, o2]
      refine ⟨i1, fun k v => ?_⟩
      rw [i2]
      unfold lastMeasured
      rw [List.filterMap_append]
      simp

/-- **C101, verify mode, any phase.** After any history `hs` of earlier phases and any measurements `es` of a phase with the rules `orders`, a measurement
of a configuration that matches at most one side of each rule adds exactly the reports in which the new time contradicts a rule, where the other
configuration counts with the last time measured for it, in this or in an earlier phase. -/
theorem C101_verify_reports_any_phase {orders : List CfgOrder} {S queue q : List (Configuration Rat)} {hs : List RuleEvent}
    {es : List (Configuration Rat × Int × List (Configuration Rat))} {c : Configuration Rat} {x : Int}
    (hdisj : ∀ o ∈ orders, ¬ (Matches o.smaller c ∧ Matches o.greater c)) {before : List RuleEvent}
    (hbefore : before = hs ++ .phase orders queue :: es.map fun e => .measure e.1 e.2.1 e.2.2) (r : RuleError) :
    r ∈ ((before ++ [RuleEvent.measure c x q]).foldl verifyEvent (RuleState.init S)).errors ↔
      r ∈ (before.foldl verifyEvent (RuleState.init S)).errors ∨
      (r.order ∈ orders ∧ SaysBetter r.order r.shouldBeBetter r.actuallyBetter ∧ r.actuallyBetterTime < r.shouldBeBetterTime ∧
        ((r.actuallyBetter = c ∧ r.actuallyBetterTime = x ∧ lastMeasured before r.shouldBeBetter = some r.shouldBeBetterTime) ∨
          (r.shouldBeBetter = c ∧ r.shouldBeBetterTime = x ∧ lastMeasured before r.actuallyBetter = some r.actuallyBetterTime))) := by
  set s := before.foldl verifyEvent (RuleState.init S) with hs0
  have hstate : s.active = orders ∧ s.lastApplicable = orders := by
    have : ∀ (es : List (Configuration Rat × Int × List (Configuration Rat))) (s : RuleState), s.active = orders → s.lastApplicable = orders →
        ((es.map fun e => RuleEvent.measure e.1 e.2.1 e.2.2).foldl verifyEvent s).active = orders ∧
        ((es.map fun e => RuleEvent.measure e.1 e.2.1 e.2.2).foldl verifyEvent s).lastApplicable = orders := by
      intro es
      induction es with
      | nil => intro s h1 h2; exact ⟨h1, h2⟩
      | cons e es ih =>
        intro s h1 h2
        rw [List.map_cons, List.foldl_cons]
        obtain ⟨-, -, o3, o4, -, -⟩ := verify_optimize (s.addEvidence true e.1 e.2.1) e.2.2
        exact ih _ (o3.trans h1) (o4.trans h1)
    rw [hs0, hbefore, List.foldl_append, List.foldl_cons]
    obtain ⟨-, -, o3, o4, -, -⟩ := verify_optimize
      { hs.foldl verifyEvent (RuleState.init S) with active := orders, tuningTime := 0, wouldHaveSkipped := 0, removed := [], rulesTooHarsh := false } queue
    exact this es _ o3 o4
  obtain ⟨t1, t2⟩ := verify_times S before
  rw [← hs0] at t1 t2
  obtain ⟨-, u2⟩ := setTime_spec t1 c x
  rw [List.foldl_append, List.foldl_cons, List.foldl_nil, ← hs0]
  obtain ⟨o1, -⟩ := verify_optimize (s.addEvidence true c x) q
  simp only [verifyEvent, o1]
  show r ∈ s.errors ++ s.lastApplicable.flatMap (verifyOrder (setTime s.traversalTimes c x) c x) ↔ _
  rw [hstate.2, List.mem_append]
  refine or_congr_right ?_
  obtain ⟨o, a, ta, b, tb⟩ := r
  simp only
  constructor
  · intro h
    obtain ⟨o', ho', h⟩ := List.mem_flatMap.1 h
    have hnot := hdisj o' ho'
    unfold verifyOrder at h
    split_ifs at h with m1 m2
    · obtain ⟨⟨y, ty⟩, hy, he⟩ := List.mem_map.1 h
      obtain ⟨hy1, hy2⟩ := List.mem_filter.1 hy
      simp only [Bool.and_eq_true, decide_eq_true_eq, matches_iff, same_iff] at hy2
      injection he with e1 e2 e3 e4 e5
      subst e1 e2 e3 e4 e5
      have hne : y ≠ c := fun e => hnot ⟨matches_iff.1 m1, e ▸ hy2.1.1⟩
      rw [u2, if_neg hne, t2] at hy1
      exact ⟨ho', ⟨hy2.1.1, matches_iff.1 m1, fun z hz => agreeIn_symm.1 (hy2.1.2 z hz)⟩, hy2.2, .inl ⟨rfl, rfl, hy1⟩⟩
    · obtain ⟨⟨y, ty⟩, hy, he⟩ := List.mem_map.1 h
      obtain ⟨hy1, hy2⟩ := List.mem_filter.1 hy
      simp only [Bool.and_eq_true, decide_eq_true_eq, matches_iff, same_iff] at hy2
      injection he with e1 e2 e3 e4 e5
      subst e1 e2 e3 e4 e5
      have hne : y ≠ c := fun e => hnot ⟨e ▸ hy2.1.1, matches_iff.1 m2⟩
      rw [u2, if_neg hne, t2] at hy1
      exact ⟨ho', ⟨matches_iff.1 m2, hy2.1.1, hy2.1.2⟩, hy2.2, .inr ⟨rfl, rfl, hy1⟩⟩
    · simp at h
  · rintro ⟨h1, h4, h5, h6⟩
    have hnot := hdisj o h1
    refine List.mem_flatMap.2 ⟨o, h1, ?_⟩
    unfold verifyOrder
    rcases h6 with ⟨rfl, rfl, h6⟩ | ⟨rfl, rfl, h6⟩
    · have hne : b ≠ a := fun e => hnot ⟨h4.right, e ▸ h4.left⟩
      rw [if_pos (matches_iff.2 h4.right)]
      refine List.mem_map.2 ⟨(b, tb), List.mem_filter.2 ⟨?_, ?_⟩, rfl⟩
      · rw [u2, if_neg hne, t2]; exact h6
      · simp only [Bool.and_eq_true, decide_eq_true_eq, matches_iff, same_iff]
        exact ⟨⟨h4.left, fun z hz => agreeIn_symm.1 (h4.same z hz)⟩, h5⟩
    · have hne : a ≠ b := fun e => hnot ⟨e ▸ h4.right, h4.left⟩
      rw [if_neg (fun hh => hnot ⟨matches_iff.1 hh, h4.left⟩), if_pos (matches_iff.2 h4.left)]
      refine List.mem_map.2 ⟨(a, ta), List.mem_filter.2 ⟨?_, ?_⟩, rfl⟩
      · rw [u2, if_neg hne, t2]; exact h6
      · simp only [Bool.and_eq_true, decide_eq_true_eq, matches_iff, same_iff]
        exact ⟨⟨h4.right, h4.same⟩, h5⟩

theorem mem_setInsert {x y : Configuration Rat} : ∀ {l : List (Configuration Rat)}, y ∈ setInsert x l ↔ y = x ∨ y ∈ l := by
  intro l
  induction l with
  | nil => simp [setInsert]
  | cons z l ih =>
    unfold setInsert
    split_ifs with h1 h2
    · simp
    · simp only [List.mem_cons, ih]
      tauto
    · have : x = z := by
        rcases C43_less_is_strict_total_order.2.2 x z with h | h | h
        · exact absurd h h1
        · exact absurd h h2
        · exact h
      subst this
      simp

theorem mem_foldl_setInsert {y : Configuration Rat} : ∀ {l s : List (Configuration Rat)},
    y ∈ l.foldl (fun r c => setInsert c r) s ↔ y ∈ l ∨ y ∈ s := by
  intro l
  induction l with
  | nil => simp
  | cons x l ih =>
    intro s
    simp only [List.foldl_cons, ih, mem_setInsert, List.mem_cons]
    tauto

open Classical in
theorem saved_aux {orders : List CfgOrder} : ∀ (es : List (Configuration Rat × Int × List (Configuration Rat))) (s : RuleState),
    s.active = orders → (∀ c ∈ s.removed, CalledWorse orders c) →
    (∀ e ∈ es, CalledWorse orders e.1 → e.1 ∈ s.removed) →
    (verifyPhase s es).wouldHaveSkipped = s.wouldHaveSkipped +
      ((es.filter fun e => decide (CalledWorse orders e.1)).map fun e => e.2.1).sum := by
  intro es
  induction es with
  | nil => intro s _ _ _; simp [verifyPhase]
  | cons e es ih =>
    intro s h1 h2 h3
    obtain ⟨c, x, q⟩ := e
    obtain ⟨-, -, o3, -, o5, o6⟩ := verify_optimize (s.addEvidence true c x) q
    have hact : (s.addEvidence true c x).active = orders := h1
    have hrem : (s.addEvidence true c x).removed = s.removed := rfl
    rw [hact] at o3
    rw [hact, hrem] at o6
    have := ih ((s.addEvidence true c x).optimize true q).2 o3 (by
        intro d hd
        rw [o6, mem_foldl_setInsert] at hd
        rcases hd with hd | hd
        · exact ruledOut_iff.1 (List.mem_filter.1 hd).2
        · exact h2 d hd)
      (by
        intro e he hw
        rw [o6, mem_foldl_setInsert]
        exact .inr (h3 e (by simp [he]) hw))
    show (verifyPhase _ es).wouldHaveSkipped = _
    rw [this, o5]
    show (s.wouldHaveSkipped + (if (true && decide (c ∈ s.removed)) = true then x else 0)) + _ = _
    by_cases hw : CalledWorse orders c
    · have hm := h3 (c, x, q) (by simp) hw
      rw [if_pos (by simpa using hm), List.filter_cons_of_pos (by simpa using hw)]
      simp only [List.map_cons, List.sum_cons]
      omega
    · have hm : c ∉ s.removed := fun h => hw (h2 c h)
      rw [if_neg (by simpa using hm), List.filter_cons_of_neg (by simpa using hw)]
      omega

open Classical in
/-- **C101, verify mode.** The time that the tuning phase is reported to have wasted is the sum of the measurements of the
configurations that the rules would have removed. Holds in every phase, for every state `s` left by earlier ones. -/
theorem C101_verify_saved_time {orders : List CfgOrder} {s : RuleState} {queue : List (Configuration Rat)}
    {es : List (Configuration Rat × Int × List (Configuration Rat))} (hq : ∀ e ∈ es, e.1 ∈ queue) :
    (verifyPhase (s.reset true orders queue).2 es).wouldHaveSkipped =
      ((es.filter fun e => decide (CalledWorse orders e.1)).map fun e => e.2.1).sum := by
  unfold RuleState.reset
  obtain ⟨-, -, o3, -, o5, o6⟩ := verify_optimize
    { s with active := orders, tuningTime := 0, wouldHaveSkipped := 0, removed := [], rulesTooHarsh := false } queue
  have := saved_aux (orders := orders) es _ o3 (by
      intro d hd
      rw [o6, mem_foldl_setInsert] at hd
      rcases hd with hd | hd
      · exact ruledOut_iff.1 (List.mem_filter.1 hd).2
      · simp at hd)
    (by
      intro e he hw
      rw [o6, mem_foldl_setInsert]
      exact .inl (List.mem_filter.2 ⟨hq e he, ruledOut_iff.2 hw⟩))
  rw [this, o5]
  simp

/-! ### Examples and violations -/

section Examples

/-- A configuration: container, traversal, data layout, newton3; the rest is fixed. -/
def exC (container traversal layout n3 : Nat) : Configuration Rat := ⟨container, traversal, 0, layout, n3, 1, 0⟩

def exAny : CfgPattern := ⟨[], [], [], [], [], []⟩

/-- Rule: container 1 is better than container 0, with the same data layout. -/
def exRuleOrder : CfgOrder := ⟨{ exAny with containers := [1] }, { exAny with containers := [0] }, [.dataLayout]⟩

def exRuleCfg (verify : Bool) (orders : Nat → List CfgOrder) : TunerCfg RuleState (Configuration Rat) :=
  { tuningInterval := 7, maxSamples := 2, rebuildFrequency := 1, selector := .fastestAbs, strategies := [ruleStrategy verify orders],
    smooth := none }

private def ruleUsed (r : Outcome (Tuner RuleState (Configuration Rat) × List (Configuration Rat))) : Option (List (Configuration Rat)) :=
  match r with
  | .ok (_, u) => some u
  | _ => none

def exSpace : List (Configuration Rat) := [exC 0 0 0 0, exC 0 0 1 0, exC 1 1 0 0, exC 1 1 1 0, exC 2 2 0 0]

/-- One configuration is not applicable to the functor. -/
def exRuleV (c : Configuration Rat) : Verdict := if c = exC 1 1 1 0 then .notApplicable else .applicable

/-- The configurations that the rule leaves. -/
def exLeft : List (Configuration Rat) := [exC 1 1 0 0, exC 1 1 1 0, exC 2 2 0 0]

/-- The hypotheses of `C101_tested_partial` hold for this rule. -/
example : Ascending exSpace ∧ ToTest [exRuleOrder] exSpace exLeft ∧ TwoCompatible exRuleV exLeft ∧
    (∀ x, exLeft.getLast? = some x → exRuleV x = .applicable) ∧
    (exLeft.filter (fun c => exRuleV c = .applicable)).length * 2 < 7 := by
  refine ⟨by unfold Ascending; decide +kernel, ?_, ?_, by decide +kernel, by decide +kernel⟩
  · have h : exLeft = exSpace.filter (tested false [exRuleOrder] exSpace) := by decide +kernel
    rw [h]
    exact toTest_tested _ _
  · exact ⟨exC 1 1 0 0, by decide +kernel, exC 2 2 0 0, by decide +kernel, by decide +kernel, by decide +kernel, by decide +kernel⟩

/-- … and this is what happens: neither configuration of container 0 is ever used. -/
example : (match Tuner.init (exRuleCfg false fun _ => [exRuleOrder]) exSpace (RuleState.init exSpace) with
      | .ok t => ruleUsed (tunerRun (exRuleCfg false fun _ => [exRuleOrder]) 6 exRuleV t
          [(9, true), (5, false), (7, true), (4, false), (9, true), (8, false), (1, true)])
      | _ => none) = some [exC 1 1 0 0, exC 1 1 0 0, exC 2 2 0 0, exC 2 2 0 0, exC 2 2 0 0, exC 2 2 0 0, exC 2 2 0 0] := by
  decide +kernel

/-- Counterparts exist if everything is applicable. -/
example : HasCounterparts [exRuleOrder] (fun _ => .applicable) exSpace := by
  intro o ho c hc _ hm
  simp only [List.mem_singleton] at ho
  subst ho
  have h0 : c.container = 0 := by simpa [exRuleOrder] using hm.container (by decide)
  simp only [exSpace, List.mem_cons, List.not_mem_nil, or_false] at hc
  rcases hc with rfl | rfl | rfl | rfl | rfl
  · exact ⟨exC 1 1 0 0, by decide +kernel, rfl, by decide +kernel, matches_iff.1 (by decide +kernel), hm, by simp [exRuleOrder, AgreeIn, exC]⟩
  · exact ⟨exC 1 1 1 0, by decide +kernel, rfl, by decide +kernel, matches_iff.1 (by decide +kernel), hm, by simp [exRuleOrder, AgreeIn, exC]⟩
  all_goals exact absurd h0 (by decide)

/-- **Violation**: the rule is right (containers 1 are faster than containers 0 with the same data layout), but there is no
configuration of container 1 with data layout 1. The fastest configuration is removed although the rule says nothing about it,
and the slower one is used. -/
theorem C101_violated_no_counterpart :
    ∃ (o : CfgOrder) (S : List (Configuration Rat)) (best : Configuration Rat) (time : Configuration Rat → Int),
      Ascending S ∧ best ∈ S ∧ (∀ c ∈ S, c ≠ best → time best < time c) ∧ RulesTrue [o] time ∧ (∀ g ∈ S, ¬ SaysBetter o g best) ∧
      (match Tuner.init (exRuleCfg false fun _ => [o]) S (RuleState.init S) with
        | .ok t => (ruleUsed (tunerRun (exRuleCfg false fun _ => [o]) 6 (fun _ => .applicable) t
            [(time (exC 1 1 0 0), true), (time (exC 1 1 0 0), false), (time (exC 2 2 0 0), true), (time (exC 2 2 0 0), false),
              (9, true), (9, true), (9, true)])).map fun used => decide (best ∈ used)
        | _ => none) = some false := by
  refine ⟨exRuleOrder, [exC 0 0 1 0, exC 1 1 0 0, exC 2 2 0 0], exC 0 0 1 0,
    fun c => if c.container = 1 then (if c.dataLayout = 1 then 2 else 5) else if c.container = 0 then (if c.dataLayout = 1 then 3 else 8) else 9,
    by unfold Ascending; decide +kernel, by decide +kernel, by decide +kernel, ?_, ?_, by decide +kernel⟩
  · intro o ho g c hs
    simp only [List.mem_singleton] at ho
    subst ho
    have h1 : g.container = 1 := by simpa [exRuleOrder] using hs.left.container (by decide)
    have h0 : c.container = 0 := by simpa [exRuleOrder] using hs.right.container (by decide)
    have h2 : g.dataLayout = c.dataLayout := hs.same .dataLayout (by simp [exRuleOrder])
    simp only [h1, h0, h2]
    by_cases h : c.dataLayout = 1 <;> simp [h]
  · intro g hg hs
    simp only [List.mem_cons, List.not_mem_nil, or_false] at hg
    rcases hg with rfl | rfl | rfl
    · exact absurd (hs.left.container (by decide)) (by decide +kernel)
    · exact absurd (hs.same .dataLayout (by simp [exRuleOrder])) (by simp [AgreeIn, exC])
    · exact absurd (hs.left.container (by decide)) (by decide +kernel)

/-- One contradiction, reported once: container 0 (time 3) beats container 1 (time 5) with the same data layout. -/
example : (verifyPhase ((RuleState.init exSpace).reset true [exRuleOrder] exSpace).2
      [(exC 0 0 0 0, 3, []), (exC 0 0 1 0, 9, []), (exC 1 1 0 0, 5, []), (exC 1 1 1 0, 4, [])]).errors =
    [⟨exRuleOrder, exC 0 0 0 0, 3, exC 1 1 0 0, 5⟩] ∧
    (verifyPhase ((RuleState.init exSpace).reset true [exRuleOrder] exSpace).2
      [(exC 0 0 0 0, 3, []), (exC 0 0 1 0, 9, []), (exC 1 1 0 0, 5, []), (exC 1 1 1 0, 4, [])]).wouldHaveSkipped = 12 ∧
    (∀ c ∈ exSpace, ¬ (exRuleOrder.smaller.matches c = true ∧ exRuleOrder.greater.matches c = true)) := by decide +kernel

/-- **Violation**: a configuration that matches both sides of a rule is only treated as the worse one. Here the rule says that
newton3 = 1 is better than everything, (0,0,0,1) takes longer than (0,0,0,0), but nothing is reported. -/
theorem C101_violated_overlap : ∃ (o : CfgOrder) (S : List (Configuration Rat)),
    (∃ r, Contradiction [o] [(exC 0 0 0 0, 3), (exC 0 0 0 1, 5)] r) ∧
    (verifyPhase ((RuleState.init S).reset true [o] S).2 [(exC 0 0 0 0, 3, []), (exC 0 0 0 1, 5, [])]).errors = [] := by
  refine ⟨⟨{ exAny with newton3Options := [1] }, exAny, []⟩, [exC 0 0 0 0, exC 0 0 0 1],
    ⟨⟨⟨{ exAny with newton3Options := [1] }, exAny, []⟩, exC 0 0 0 0, 3, exC 0 0 0 1, 5⟩, by simp, by simp, by simp,
      ⟨matches_iff.1 (by decide +kernel), matches_iff.1 (by decide +kernel), by simp⟩, by decide⟩, by decide +kernel⟩

/-- **Violation**: the measurements of the second phase agree with the rule (2 < 4), but the first measurement of this phase is
compared with the time from the first phase, and an error is reported. -/
theorem C101_violated_stale_times :
    let first := verifyPhase ((RuleState.init exSpace).reset true [exRuleOrder] exSpace).2 [(exC 0 0 0 0, 30, []), (exC 1 1 0 0, 20, [])]
    let second := verifyPhase (first.reset true [exRuleOrder] exSpace).2 [(exC 0 0 0 0, 4, []), (exC 1 1 0 0, 2, [])]
    first.errors = [] ∧ (∀ r, ¬ Contradiction [exRuleOrder] [(exC 0 0 0 0, 4), (exC 1 1 0 0, 2)] r) ∧
      second.errors = [⟨exRuleOrder, exC 0 0 0 0, 4, exC 1 1 0 0, 20⟩] := by
  refine ⟨by decide +kernel, ?_, by decide +kernel⟩
  rintro ⟨o, a, ta, b, tb⟩ ⟨h1, h2, h3, h4, h5⟩
  simp only [List.mem_singleton] at h1
  subst h1
  have hb : b.container = 1 := by simpa [exRuleOrder] using h4.left.container (by simp [exRuleOrder])
  have ha : a.container = 0 := by simpa [exRuleOrder] using h4.right.container (by simp [exRuleOrder])
  simp only [List.mem_cons, List.not_mem_nil, or_false, Prod.mk.injEq] at h2 h3
  rcases h2 with ⟨rfl, rfl⟩ | ⟨rfl, rfl⟩ <;> rcases h3 with ⟨rfl, rfl⟩ | ⟨rfl, rfl⟩ <;> simp_all [exC]

end Examples

end Verif
