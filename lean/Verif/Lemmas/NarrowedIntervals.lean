import Verif.Lemmas.TuningFilter
import Verif.Spec.Tuning
/-! Histories of tuning intervals with strategies that only narrow the search space. -/
namespace Verif
open Spec

/-- The intervals of a history; number `i` of `xss` is tuning phase `p + i`. -/
theorem narrowed_intervals {σ C : Type} [DecidableEq C] {cfg : TunerCfg σ C} (hmax : 0 < cfg.maxSamples) (hsm : cfg.smooth = none)
    {v : C → Verdict} {S : List C} (hnd : S.Nodup) {k : Nat → C → Bool} {rev : Nat → Bool} {Inv : Nat → List C → σ → Prop}
    (hN : ∀ p, Narrows cfg v S p (k p) (rev p) (Inv p))
    (htwo : ∀ p, TwoCompatible v (pick (rev p) (k p) S))
    (hlast : ∀ p x, (pick (rev p) (k p) S).getLast? = some x → v x = .applicable)
    {apps : Nat → List C}
    (happs : ∀ p, apps p = (pick (rev p) (k p) S).filter (fun c => v c = .applicable))
    (hfit : ∀ p, (apps p).length * cfg.maxSamples < cfg.tuningInterval) :
    ∀ (xss : List (List (Int × Bool))) (p : Nat) (t : Tuner σ C), IntervalStart cfg v S p t →
      (∀ xs ∈ xss, xs.length = cfg.tuningInterval) →
      (∀ n xs, xss[n]? = some xs → ∀ i < (apps (p + n)).length, chunkEstimate cfg (block cfg.maxSamples i xs) < longMax) →
      ∃ (t' : Tuner σ C) (uss : List (List C)), tunerRun cfg (S.length + 1) v t xss.flatten = .ok (t', uss.flatten) ∧ uss.length = xss.length ∧
        ∀ n xs used, xss[n]? = some xs → uss[n]? = some used → used.length = cfg.tuningInterval ∧
          ∃ best, SampledThen (apps (p + n)) cfg.maxSamples best used ∧
            Fastest (apps (p + n)) (fun i => chunkEstimate cfg (block cfg.maxSamples i xs)) best := by
  intro xss
  induction xss with
  | nil => intro p t _ _ _; exact ⟨t, [], rfl, rfl, by simp⟩
  | cons xs xss ih =>
    intro p t h hl hv
    obtain ⟨t1, i, c, hi, hc, hmin, hrun, hnext⟩ := narrowed_interval hmax hsm hnd (hN p) (htwo p)
      (hlast p) (happs p) h (fuel := S.length + 1) (by omega) (hl xs (by simp)) (hfit p) (hv 0 xs rfl)
    obtain ⟨t2, uss, r1, r2, r3⟩ := ih (p + 1) t1 hnext (fun y hy => hl y (by simp [hy])) (by
      intro n ys hn
      have := hv (n + 1) ys (by simpa using hn)
      rwa [show p + (n + 1) = p + 1 + n by omega] at this)
    have hul : ((apps p).flatMap (List.replicate cfg.maxSamples) ++
        List.replicate (cfg.tuningInterval - (apps p).length * cfg.maxSamples) c).length = cfg.tuningInterval := by
      have : ((apps p).flatMap (List.replicate cfg.maxSamples)).length = (apps p).length * cfg.maxSamples := by
        simp [List.length_flatMap]
      have hf := hfit p
      rw [List.length_append, this, List.length_replicate]
      omega
    refine ⟨t2, ((apps p).flatMap (List.replicate cfg.maxSamples) ++
        List.replicate (cfg.tuningInterval - (apps p).length * cfg.maxSamples) c) :: uss, ?_, by simp [r2], ?_⟩
    · rw [List.flatten_cons, List.flatten_cons]
      exact tunerRun_append hrun r1
    · intro n ys used h1 h2
      cases n with
      | zero =>
        simp only [List.getElem?_cons_zero, Option.some.injEq] at h1 h2
        subst h1; subst h2
        refine ⟨hul, c, ?_, i, hc, hmin⟩
        unfold SampledThen
        rw [hul]
        rfl
      | succ n =>
        simp only [List.getElem?_cons_succ] at h1 h2
        have := r3 n ys used h1 h2
        rwa [show p + 1 + n = p + (n + 1) by omega] at this

theorem intervalStart_init {σ C : Type} [DecidableEq C] {cfg : TunerCfg σ C} {v : C → Verdict} {S : List C} {s : σ} {t : Tuner σ C}
    (h : Tuner.init cfg S s = .ok t) : IntervalStart cfg v S 0 t := by
  unfold Tuner.init at h
  split_ifs at h with hne
  cases h
  refine ⟨?_, by simp [Tuner.numSamples], rfl, rfl, Nat.zero_mod _, rfl, ?_, Keeps.refl _ _⟩
  · simpa using hne
  · exact ⟨by simp, by simp [getEvidence], by simp [getEvidence]⟩

end Verif
