import Verif.Lemmas.TuningPhase
import Verif.Spec.Tuning
/-!
# C37 — Every applicable configuration of the search space is sampled

Full search (no tuning strategies), from the constructor on, for any number of tuning intervals, arbitrary measured times and
rebuild patterns. The statement in `properties.jsonl` has no side condition; two are needed, and the code violates the
property without them (`C37_violated_last_not_applicable`, `C37_violated_short_interval`):
* the last configuration of the search space is applicable (otherwise `back()` of an empty queue is used),
* the phase fits into the tuning interval.
Missing for the full property: verdicts that change over time, other strategies.
-/
namespace Verif
open Spec

variable {σ C : Type} [DecidableEq C]

theorem phaseStart_init {cfg : TunerCfg σ C} {v : C → Verdict} {S : List C} {s : σ} {t : Tuner σ C}
    (h : Tuner.init cfg S s = .ok t) (hnd : S.Nodup) (hc : TwoCompatible v S)
    (hlast : ∀ x, S.getLast? = some x → v x = .applicable) :
    PhaseStart cfg v (S.filter (fun c => v c = .applicable)) 0 0 t ∧ t.searchSpace = S := by
  unfold Tuner.init at h
  have hne : S.isEmpty = false := by
    obtain ⟨a, ha, -⟩ := hc
    cases S with
    | nil => simp at ha
    | cons => rfl
  rw [hne] at h
  simp only [Bool.false_eq_true, if_false, Outcome.ok.injEq] at h
  subst h
  refine ⟨⟨?_, by simp [Tuner.numSamples], .inl ⟨Nat.zero_mod _, rfl⟩, Nat.zero_mod _, rfl, ?_, rfl, hnd, hc, hlast⟩, rfl⟩
  · simpa using hne
  · exact ⟨by simp, by simp [getEvidence], by simp [getEvidence]⟩

/-- All tuning intervals of a history. -/
theorem intervals_run {cfg : TunerCfg σ C} (hst : cfg.strategies = []) (hmax : 0 < cfg.maxSamples) (hsm : cfg.smooth = none)
    {v : C → Verdict} {apps : List C} {fuel : Nat} (hfit : apps.length * cfg.maxSamples < cfg.tuningInterval) :
    ∀ (xss : List (List (Int × Bool))) (p : Nat) (t : Tuner σ C), PhaseStart cfg v apps p 0 t →
      t.searchSpace.length < fuel → (∀ xs ∈ xss, xs.length = cfg.tuningInterval) →
      (∀ xs ∈ xss, ∀ i < apps.length, chunkEstimate cfg (block cfg.maxSamples i xs) < longMax) →
      ∃ t' uss, tunerRun cfg fuel v t xss.flatten = .ok (t', uss.flatten) ∧
        List.Forall₂ (fun xs used => used.length = cfg.tuningInterval ∧ ∃ best, SampledThen apps cfg.maxSamples best used ∧
          Fastest apps (fun i => chunkEstimate cfg (block cfg.maxSamples i xs)) best) xss uss := by
  intro xss
  induction xss with
  | nil => intro p t _ _ _ _; exact ⟨t, [], rfl, .nil⟩
  | cons xs xss ih =>
    intro p t h hf hl hv
    obtain ⟨t1, i, c, hi, hc, hmin, hrun, hnext, hlen⟩ := interval_run hst hmax hsm h hf (hl xs (by simp)) hfit (hv xs (by simp))
    obtain ⟨t2, uss, r1, r2⟩ := ih (p + 1) t1 hnext (by omega) (fun y hy => hl y (by simp [hy])) (fun y hy => hv y (by simp [hy]))
    have hul : (apps.flatMap (List.replicate cfg.maxSamples) ++
        List.replicate (cfg.tuningInterval - apps.length * cfg.maxSamples) c).length = cfg.tuningInterval := by
      have : (apps.flatMap (List.replicate cfg.maxSamples)).length = apps.length * cfg.maxSamples := by
        clear r1 r2 hrun hmin hc hi hv hnext h ih hfit
        induction apps with
        | nil => simp
        | cons a l ih => rw [List.flatMap_cons, List.length_append, ih, List.length_replicate, List.length_cons, Nat.succ_mul]; omega
      rw [List.length_append, this, List.length_replicate]
      omega
    refine ⟨t2, (apps.flatMap (List.replicate cfg.maxSamples) ++
        List.replicate (cfg.tuningInterval - apps.length * cfg.maxSamples) c) :: uss, ?_, .cons ⟨hul, c, ?_, i, hc, hmin⟩ r2⟩
    · rw [List.flatten_cons, List.flatten_cons]
      exact tunerRun_append hrun r1
    · unfold SampledThen
      rw [hul]

/-- **C37.** In every tuning interval every applicable configuration of the search space is used in exactly `maxSamples`
consecutive iterations, in the order of the search space; the remaining iterations use one single configuration. -/
theorem C37_every_configuration_sampled_partial {cfg : TunerCfg σ C} {v : C → Verdict} {S : List C} {s : σ} {t : Tuner σ C}
    (hinit : Tuner.init cfg S s = .ok t) (hfull : cfg.strategies = []) (hsmooth : cfg.smooth = none) (hmax : 0 < cfg.maxSamples)
    (hset : S.Nodup) (htwo : TwoCompatible v S) (hlast : ∀ x, S.getLast? = some x → v x = .applicable)
    (hfit : (S.filter (fun c => v c = .applicable)).length * cfg.maxSamples < cfg.tuningInterval)
    (xss : List (List (Int × Bool))) (hlen : ∀ xs ∈ xss, xs.length = cfg.tuningInterval)
    (hrange : ∀ xs ∈ xss, ∀ i < (S.filter (fun c => v c = .applicable)).length,
      chunkEstimate cfg (block cfg.maxSamples i xs) < longMax) :
    ∃ (t' : Tuner σ C) (uss : List (List C)), tunerRun cfg (S.length + 1) v t xss.flatten = .ok (t', uss.flatten) ∧ uss.length = xss.length ∧
      ∀ used ∈ uss, used.length = cfg.tuningInterval ∧
        ∃ best ∈ S, v best = .applicable ∧ SampledThen (S.filter (fun c => v c = .applicable)) cfg.maxSamples best used := by
  obtain ⟨h0, hS⟩ := phaseStart_init (v := v) hinit hset htwo hlast
  obtain ⟨t', uss, h1, h2⟩ := intervals_run hfull hmax hsmooth hfit xss 0 t h0 (fuel := S.length + 1) (by rw [hS]; omega) hlen hrange
  refine ⟨t', uss, h1, h2.length_eq.symm, ?_⟩
  intro used hu
  clear h1 hlen hrange
  induction h2 with
  | nil => simp at hu
  | cons h3 _ ih =>
    rcases List.mem_cons.1 hu with rfl | hu
    · obtain ⟨hl, best, hs, i, hi, -⟩ := h3
      have := List.mem_of_getElem? hi
      obtain ⟨m1, m2⟩ := List.mem_filter.1 this
      exact ⟨hl, best, m1, by simpa using m2, hs⟩
    · exact ih hu

/-- Per configuration: before the final configuration takes over, each applicable configuration occurs exactly `s` times,
all others never. -/
theorem C37_sample_counts {apps : List C} (hnd : apps.Nodup) (s : Nat) (c : C) :
    (apps.flatMap (List.replicate s)).count c = if c ∈ apps then s else 0 := by
  induction apps with
  | nil => simp
  | cons a l ih =>
    rw [List.nodup_cons] at hnd
    rw [List.flatMap_cons, List.count_append, ih hnd.2, List.count_replicate]
    by_cases h : a = c
    · subst h; simp [hnd.1]
    · simp [h, Ne.symm h]

section Examples

/-- Three configurations, two samples each, interval 8. -/
private def exCfg : TunerCfg Unit Nat :=
  { tuningInterval := 8, maxSamples := 2, rebuildFrequency := 3, selector := .fastestAbs, strategies := [], smooth := none }

/-- Configuration 1 can never be used, configuration 3 is not applicable. -/
private def exV : Nat → Verdict := fun c => if c = 1 then .incompatible else if c = 3 then .notApplicable else .applicable

private def usedBy (r : Outcome (Tuner Unit Nat × List Nat)) : Option (List Nat) :=
  match r with
  | .ok (_, l) => some l
  | _ => none

/-- The hypotheses are met: -/
example : TwoCompatible exV [0, 1, 2, 3, 4] ∧ [0, 1, 2, 3, 4].Nodup ∧
    (∀ x, [0, 1, 2, 3, 4].getLast? = some x → exV x = .applicable) ∧
    ([0, 1, 2, 3, 4].filter (fun c => exV c = .applicable)).length * exCfg.maxSamples < exCfg.tuningInterval :=
  ⟨⟨0, by decide, 2, by decide, by decide, by decide, by decide⟩, by decide, by decide, by decide⟩

/-- … and this is what happens (the second configuration is the fastest): -/
example : (match Tuner.init exCfg [0, 1, 2, 3, 4] () with
      | .ok t => usedBy (tunerRun exCfg 6 exV t
          [(9, true), (5, false), (7, true), (4, false), (9, true), (8, false), (1, true), (1, false)])
      | _ => none) = some [0, 0, 2, 2, 4, 4, 2, 2] := by decide +kernel

/-- **Violation**: if the last configuration of the search space is not applicable, the first tuning phase ends in undefined
behaviour (`back()` of an empty vector), although other configurations are applicable. -/
theorem C37_violated_last_not_applicable :
    (match Tuner.init exCfg [0, 2, 3] () with
      | .ok t => (match tunerRun exCfg 6 exV t [(9, true), (5, false), (7, true), (4, false), (1, false)] with
        | .ub => true
        | _ => false)
      | _ => false) = true := by decide +kernel

/-- **Violation**: if the sampling takes exactly one tuning interval, the phase ends with an exception. -/
theorem C37_violated_short_interval :
    (match Tuner.init { exCfg with tuningInterval := 4 } [0, 2] () with
      | .ok t => (match tunerRun { exCfg with tuningInterval := 4 } 6 exV t
            [(9, true), (5, false), (7, true), (4, false), (1, false)] with
        | .throws => true
        | _ => false)
      | _ => false) = true := by decide +kernel

end Examples

end Verif
