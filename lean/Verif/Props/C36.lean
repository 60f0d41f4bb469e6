import Verif.Props.C37
/-!
# C36 — The tuner ends a phase with the fastest measured configuration

* `C36_optimum_minimal`: whatever the strategies and the history, the configuration chosen at the end of a phase has the
  smallest evidence *labelled with the current phase number*, provided that every configuration has at most one such evidence.
* `C36_fastest_selected_partial`: with full search the configuration used in the rest of every tuning interval has the smallest
  estimated cost of all applicable configurations.

The English property has no side condition. **The code violates it** when the phase is longer than the tuning interval: the
phase number is increased meanwhile, and everything measured before is ignored (`C36_violated_long_phase`).
-/
namespace Verif
open Spec

variable {σ C : Type} [DecidableEq C]

omit [DecidableEq C] in
/-- Choice among evidences. -/
theorem C36_optimum_minimal {m : EvidenceMap C} {phase : Nat}
    (hone : ∀ k es, (k, es) ∈ m → (es.filter (fun e => e.tuningPhase = phase)).length ≤ 1)
    (hrange : ∀ k es, (k, es) ∈ m → ∀ e ∈ es, e.value < longMax)
    (hsome : ∃ k es e, (k, es) ∈ m ∧ e ∈ es ∧ e.tuningPhase = phase) :
    ∃ best es e, getOptimalConfiguration m phase = .ok best ∧ (best, es) ∈ m ∧ e ∈ es ∧ e.tuningPhase = phase ∧
      ∀ k' es', (k', es') ∈ m → ∀ e' ∈ es', e'.tuningPhase = phase → e.value ≤ e'.value := by
  refine getOptimal_spec ?_ (fun k es h e he _ => hrange k es h e he) hsome
  intro k es hm e he e' he' hp hp'
  have h1 := hone k es hm
  have a1 : e ∈ es.filter (fun e => e.tuningPhase = phase) := List.mem_filter.2 ⟨he, by simpa using hp⟩
  have a2 : e' ∈ es.filter (fun e => e.tuningPhase = phase) := List.mem_filter.2 ⟨he', by simpa using hp'⟩
  generalize es.filter (fun e => e.tuningPhase = phase) = l at h1 a1 a2
  match l, h1, a1, a2 with
  | [x], _, a1, a2 =>
    simp only [List.mem_singleton] at a1 a2
    rw [a1, a2]

/-- **C36.** In every tuning interval, after all applicable configurations have been sampled, one with the smallest estimated
cost is used until the interval ends. `chunkEstimate` is what C47 is about. -/
theorem C36_fastest_selected_partial {cfg : TunerCfg σ C} {v : C → Verdict} {S : List C} {s : σ} {t : Tuner σ C}
    (hinit : Tuner.init cfg S s = .ok t) (hfull : cfg.strategies = []) (hsmooth : cfg.smooth = none) (hmax : 0 < cfg.maxSamples)
    (hset : S.Nodup) (htwo : TwoCompatible v S) (hlast : ∀ x, S.getLast? = some x → v x = .applicable)
    (hfit : (S.filter (fun c => v c = .applicable)).length * cfg.maxSamples < cfg.tuningInterval)
    (xss : List (List (Int × Bool))) (hlen : ∀ xs ∈ xss, xs.length = cfg.tuningInterval)
    (hrange : ∀ xs ∈ xss, ∀ i < (S.filter (fun c => v c = .applicable)).length,
      chunkEstimate cfg (block cfg.maxSamples i xs) < longMax) :
    ∃ (t' : Tuner σ C) (uss : List (List C)), tunerRun cfg (S.length + 1) v t xss.flatten = .ok (t', uss.flatten) ∧
      List.Forall₂ (fun xs used => used.length = cfg.tuningInterval ∧
        ∃ best, SampledThen (S.filter (fun c => v c = .applicable)) cfg.maxSamples best used ∧
          Fastest (S.filter (fun c => v c = .applicable)) (fun i => chunkEstimate cfg (block cfg.maxSamples i xs)) best)
        xss uss := by
  obtain ⟨h0, hS⟩ := phaseStart_init (v := v) hinit hset htwo hlast
  exact intervals_run hfull hmax hsmooth hfit xss 0 t h0 (fuel := S.length + 1) (by rw [hS]; omega) hlen hrange

section Examples

private def exMap : EvidenceMap Nat := [(5, [⟨0, 0, 3⟩, ⟨9, 1, 8⟩]), (6, [⟨10, 1, 7⟩]), (7, [⟨1, 0, 1⟩, ⟨12, 1, 7⟩])]

example : (∀ x ∈ exMap, (x.2.filter (fun e => e.tuningPhase = 1)).length ≤ 1) ∧ getOptimalConfiguration exMap 1 = .ok 6 := by
  decide +kernel

private def exCfg36 : TunerCfg Unit Nat :=
  { tuningInterval := 2, maxSamples := 1, rebuildFrequency := 1, selector := .fastestAbs, strategies := [], smooth := none }

/-- **Violation**: three configurations with one sample each, tuning interval 2. Configuration 0 takes time 1, configuration 1
time 5, configuration 2 time 9; the phase ends with configuration 2. -/
theorem C36_violated_long_phase :
    (match Tuner.init exCfg36 [0, 1, 2] () with
      | .ok t => (match tunerRun exCfg36 5 (fun _ => .applicable) t [(1, true), (5, true), (9, true), (9, true)] with
        | .ok (_, used) => some used
        | _ => none)
      | _ => none) = some [0, 1, 2, 2] := by decide +kernel

/-- Two evidences of the same configuration in one phase (after `forceRetune`): only the last one that improves counts, so that
the result is not the configuration with the smallest evidence. -/
theorem C36_violated_two_evidences :
    getOptimalConfiguration [(0, [⟨0, 0, 1⟩, ⟨5, 0, 9⟩]), (1, [⟨1, 0, 4⟩])] 0 = .ok 1 := by decide +kernel

end Examples

end Verif
