import Verif.Model.IterationEstimate
import Verif.Props.C136
import Verif.Lemmas.TuningFlags
import Mathlib.Data.Nat.ModEq
/-!
C144: a simulation of md-flexible that is limited by tuning phases ends with the time step after the last of them, and the number of iterations the progress bar
counts to is never too small for full search; it is exact if there is only one tuning phase or none.
-/
namespace Verif
open Spec
variable {σ : Type}

/-- Tuning as full search does it (C37): every interval of `interval` iterations begins with `len` tuning iterations, and `len` is less than the interval. -/
structure TunesFirst (c : MDLoopConfig) (e : MDParts σ) (s : σ) (interval len : Nat) : Prop where
  pos : 0 < len
  fits : len < interval
  tunes : ∀ k, tunes c e s k = decide (k % interval < len)

/-! ### Full search tunes first -/

section Tuner
variable {τ C : Type} [DecidableEq C]

/-- Measurements of `m` whole tuning intervals; every sample gives a run time within the range of `long`. -/
structure Measurements (cfg : TunerCfg τ C) (configs m : Nat) (xss : List (List (Int × Bool))) : Prop where
  number : xss.length = m
  whole : ∀ xs ∈ xss, xs.length = cfg.tuningInterval
  range : ∀ xs ∈ xss, ∀ i < configs, chunkEstimate cfg (block cfg.maxSamples i xs) < longMax

private theorem intervals_flags {cfg : TunerCfg τ C} (hst : cfg.strategies = []) (hmax : 0 < cfg.maxSamples) (hsm : cfg.smooth = none) {v : C → Verdict}
    (hv : ∀ c, v c = .applicable) {apps : List C} {fuel : Nat} (hfit : apps.length * cfg.maxSamples < cfg.tuningInterval) :
    ∀ (xss : List (List (Int × Bool))) (p : Nat) (t : Tuner τ C), PhaseStart cfg v apps p 0 t → Quiet cfg t → t.searchSpace.length < fuel →
      (∀ xs ∈ xss, xs.length = cfg.tuningInterval) → (∀ xs ∈ xss, ∀ i < apps.length, chunkEstimate cfg (block cfg.maxSamples i xs) < longMax) →
      ∃ l, tunerFlags cfg fuel v t xss.flatten = .ok l ∧ l.length = xss.length * cfg.tuningInterval ∧
        ∀ k < l.length, l[k]? = some (decide (k % cfg.tuningInterval < apps.length * cfg.maxSamples)) := by
  intro xss
  induction xss with
  | nil => intro p t _ _ _ _ _; exact ⟨[], rfl, by simp, by simp⟩
  | cons xs xss ih =>
    intro p t h hq hf hl hr
    obtain ⟨t1, u, r1, r2, r3, r4, r5⟩ := interval_flags hst hmax hsm hv h hq hf (hl xs (by simp)) hfit (hr xs (by simp))
    obtain ⟨l, h1, h2, h3⟩ := ih (p + 1) t1 r2 r4 (by omega) (fun y hy => hl y (by simp [hy])) (fun y hy => hr y (by simp [hy]))
    have hlen : (List.replicate (apps.length * cfg.maxSamples) true ++ List.replicate (cfg.tuningInterval - apps.length * cfg.maxSamples) false).length =
        cfg.tuningInterval := by simp; omega
    refine ⟨_, by rw [List.flatten_cons]; exact tunerFlags_append r1 r5 h1, ?_, ?_⟩
    · rw [List.length_append, hlen, h2, List.length_cons, Nat.succ_mul, Nat.add_comm]
    · intro k hk
      rw [List.length_append, hlen] at hk
      by_cases hki : k < cfg.tuningInterval
      · rw [List.getElem?_append_left (by omega), Nat.mod_eq_of_lt hki]
        by_cases hkn : k < apps.length * cfg.maxSamples
        · rw [List.getElem?_append_left (by simpa using hkn), List.getElem?_replicate, if_pos hkn]; simp [hkn]
        · rw [List.getElem?_append_right (by simpa using hkn), List.length_replicate, List.getElem?_replicate, if_pos (by omega)]; simp [hkn]
      · rw [List.getElem?_append_right (by omega), hlen, h3 _ (by omega), Nat.mod_eq_sub_mod (a := k) (by omega)]

/-- Full search of configurations that are all applicable: for any measurements, an iteration is a tuning iteration if and only if it is one of the first of its
interval, as many as there are configurations times samples. -/
theorem C144_tuning_iterations {cfg : TunerCfg τ C} {S : List C} {s : τ} {t : Tuner τ C} (hinit : Tuner.init cfg S s = .ok t) (hfull : cfg.strategies = [])
    (hsmooth : cfg.smooth = none) (hmax : 0 < cfg.maxSamples) (hset : S.Nodup) (htwo : 2 ≤ S.length) (hfit : S.length * cfg.maxSamples < cfg.tuningInterval)
    {m : Nat} {xss : List (List (Int × Bool))} (hx : Measurements cfg S.length m xss) :
    ∃ l, tunerFlags cfg (S.length + 1) (fun _ => .applicable) t xss.flatten = .ok l ∧ l.length = m * cfg.tuningInterval ∧
      ∀ k < l.length, l[k]? = some (decide (k % cfg.tuningInterval < S.length * cfg.maxSamples)) := by
  have hc : TwoCompatible (fun _ : C => Verdict.applicable) S := by
    match S, htwo, hset with
    | a :: b :: r, _, hnd => exact ⟨a, by simp, b, by simp, fun h => by subst h; simp at hnd, by simp, by simp⟩
  obtain ⟨h0, hS⟩ := phaseStart_init (v := fun _ => .applicable) hinit hset hc (fun _ _ => rfl)
  have happs : S.filter (fun _ => decide (Verdict.applicable = Verdict.applicable)) = S := by simp
  rw [happs] at h0
  have hq : Quiet cfg t := by
    refine ⟨?_, fun _ => h0.samples, h0.compat.length⟩
    unfold Tuner.init at hinit
    split at hinit
    · cases hinit
    · simp only [Outcome.ok.injEq] at hinit; rw [← hinit]
  rw [← hx.number]
  exact intervals_flags hfull hmax hsmooth (fun _ => rfl) hfit xss 0 t h0 hq (by rw [hS]; omega) hx.whole hx.range

/-- A simulation whose forces are computed with such a tuner: however long it is watched, its tuning iterations are those of the tuner for some measurements. -/
def Tuned (c : MDLoopConfig) (e : MDParts σ) (s : σ) (cfg : TunerCfg τ C) (configs : Nat) (t : Tuner τ C) : Prop :=
  ∀ m, ∃ xss, Measurements cfg configs m xss ∧ ∀ l, tunerFlags cfg (configs + 1) (fun _ => .applicable) t xss.flatten = .ok l → ∀ k < l.length, l[k]? = some (tunes c e s k)

/-- Such a simulation tunes first. -/
theorem C144_tunes_first {c : MDLoopConfig} {e : MDParts σ} {s : σ} {cfg : TunerCfg τ C} {S : List C} {s0 : τ} {t : Tuner τ C} (hinit : Tuner.init cfg S s0 = .ok t)
    (hfull : cfg.strategies = []) (hsmooth : cfg.smooth = none) (hmax : 0 < cfg.maxSamples) (hset : S.Nodup) (htwo : 2 ≤ S.length)
    (hfit : S.length * cfg.maxSamples < cfg.tuningInterval) (h : Tuned c e s cfg S.length t) :
    TunesFirst c e s cfg.tuningInterval (S.length * cfg.maxSamples) := by
  refine ⟨Nat.mul_pos (by omega) hmax, hfit, fun k => ?_⟩
  obtain ⟨xss, hx, hl⟩ := h (k + 1)
  obtain ⟨l, h1, h2, h3⟩ := C144_tuning_iterations hinit hfull hsmooth hmax hset htwo hfit hx
  have hk : k < l.length := by
    rw [h2]
    have : (k + 1) * 1 ≤ (k + 1) * cfg.tuningInterval := Nat.mul_le_mul_left _ (by omega)
    omega
  have := (hl l h1 k hk).symm.trans (h3 k hk)
  exact Option.some.inj this

end Tuner

private theorem count_ends {I L : Nat} (hL : 0 < L) (hI : L < I) : ∀ m : Nat,
    ((List.range m).filter fun k => decide (k % I < L) && !decide ((k + 1) % I < L)).length = (m + I - L) / I := by
  intro m
  induction m with
  | zero => simp only [List.range_zero, List.filter_nil, List.length_nil]; rw [Nat.div_eq_of_lt (by omega)]
  | succ m ih =>
    rw [List.range_succ, List.filter_append, List.length_append, ih]
    have h1 : m + 1 + I - L = (m + I - L) + 1 := by omega
    rw [h1, Nat.succ_div]
    have h2 : (I ∣ (m + I - L) + 1) ↔ (m % I < L ∧ ¬ (m + 1) % I < L) := by
      have hm := Nat.div_add_mod m I
      have hlt := Nat.mod_lt m (show 0 < I by omega)
      have hs : (m + 1) % I = if m % I + 1 = I then 0 else m % I + 1 := by
        split
        · rename_i h
          have : m + 1 = I * (m / I + 1) := by rw [Nat.mul_add]; omega
          rw [this, Nat.mul_mod_right]
        · rename_i h
          have : m + 1 = (m % I + 1) + I * (m / I) := by omega
          rw [this, Nat.add_mul_mod_self_left, Nat.mod_eq_of_lt (by omega)]
      have hd : m + I - L + 1 = (m % I + I + 1 - L) + I * (m / I) := by omega
      rw [hd, Nat.dvd_add_left (Dvd.intro _ rfl), hs]
      constructor
      · rintro ⟨q, hq⟩
        have : q = 1 := by
          rcases Nat.lt_trichotomy q 1 with h | h | h
          · have : q = 0 := by omega
            subst this; omega
          · exact h
          · have : I * 2 ≤ I * q := Nat.mul_le_mul_left _ h
            omega
        subst this
        split <;> omega
      · rintro ⟨h3, h4⟩
        refine ⟨1, ?_⟩
        split at h4 <;> omega
    by_cases h : m % I < L ∧ ¬ (m + 1) % I < L
    · rw [if_pos (h2.2 h)]; simp [h.1, h.2]
    · rw [if_neg (fun hh => h (h2.1 hh))]
      have : (decide (m % I < L) && !decide ((m + 1) % I < L)) = false := by
        rw [Bool.eq_false_iff]; simpa using h
      simp [this]

private theorem done_iff {c : MDLoopConfig} {e : MDParts σ} {s : σ} {I L : Nat} (h : TunesFirst c e s I L) (hP : 0 < c.tuningPhases) (n : Nat) :
    done c e s n ↔ max c.iterations ((c.tuningPhases - 1) * I + L + 1) ≤ n := by
  have hc : phasesWithin c e s n = (n - 1 + I - L) / I := by
    rw [← count_ends h.pos h.fits (n - 1)]
    simp only [phasesWithin, h.tunes]
  obtain ⟨P, hP'⟩ : ∃ P, c.tuningPhases = P + 1 := ⟨c.tuningPhases - 1, by omega⟩
  have hI := h.fits
  have hL := h.pos
  have hm : (P + 1) * I = P * I + I := Nat.succ_mul _ _
  rw [done, hc, hP', Nat.le_div_iff_mul_le (by omega), hm, Nat.max_le, Nat.add_sub_cancel]
  omega

/-- The simulation ends with the time step after the last tuning phase that was asked for, or with the last iteration that was asked for, whichever is later. -/
theorem C144_length {c : MDLoopConfig} {e : MDParts σ} {s : σ} (hI : Intervals c) (hp : c.pause = false) {interval len : Nat} (h : TunesFirst c e s interval len)
    (hP : 0 < c.tuningPhases) {fuel : Nat} (hf : max c.iterations ((c.tuningPhases - 1) * interval + len + 1) < fuel) :
    ∃ l, MDLoop.run c e fuel { s := s } = .ok l ∧ l.iteration = max c.iterations ((c.tuningPhases - 1) * interval + len + 1) := by
  obtain ⟨l, h1, -, h3, -⟩ := C136_partial (s := s) (e := e) hI (Or.inl hp) _ ((done_iff h hP _).2 (Nat.le_refl _))
    (fun m hm hd => by have := (done_iff h hP m).1 hd; omega) fuel hf
  exact ⟨l, h1, h3⟩

/-- Full search of all configurations of the larger search space: the estimate is not too small, not called precise, and too large by the tuning iterations of all
phases but one. Missing: `iterations` that take longer than the tuning phases (`C144_violated_iterations`), phases that are longer than the interval,
and the other strategies. -/
theorem C144_bound_partial {c : MDLoopConfig} {e : MDParts σ} {s : σ} (hI : Intervals c) (hp : c.pause = false) {ec : EstimateConfig}
    (hP : 0 < c.tuningPhases) (hsame : ec.tuningPhases = c.tuningPhases) (hfull : ec.samplesRandomly = false) {configs : Nat}
    (hspace : (ec.pairwise = some configs ∧ ∀ n, ec.triwise = some n → n ≤ configs) ∨ (ec.triwise = some configs ∧ ∀ n, ec.pairwise = some n → n ≤ configs))
    (h : TunesFirst c e s ec.tuningInterval (configs * ec.tuningSamples))
    (hit : c.iterations ≤ (c.tuningPhases - 1) * ec.tuningInterval + configs * ec.tuningSamples + 1)
    (hsize : c.tuningPhases * (ec.tuningInterval + configs * ec.tuningSamples) < 2 ^ 64) :
    ∃ N, (∀ fuel, N < fuel → ∃ l, MDLoop.run c e fuel { s := s } = .ok l ∧ l.iteration = N) ∧
      ec.estimate = (N + (c.tuningPhases - 1) * (configs * ec.tuningSamples), false) := by
  have ht : ec.tested = configs := by
    rcases hspace with ⟨h1, h2⟩ | ⟨h1, h2⟩
    · cases h3 : ec.triwise with
      | none => simp [EstimateConfig.tested, hfull, h1, h3]
      | some n => simp [EstimateConfig.tested, hfull, h1, h3, h2 n h3]
    · cases h3 : ec.pairwise with
      | none => simp [EstimateConfig.tested, hfull, h1, h3]
      | some n => simp [EstimateConfig.tested, hfull, h1, h3, h2 n h3]
  refine ⟨(c.tuningPhases - 1) * ec.tuningInterval + configs * ec.tuningSamples + 1, fun fuel hf => ?_, ?_⟩
  · obtain ⟨l, h1, h2⟩ := C144_length (fuel := fuel) hI hp h hP (by rw [Nat.max_eq_right hit]; exact hf)
    exact ⟨l, h1, by rw [h2, Nat.max_eq_right hit]⟩
  · rw [EstimateConfig.estimate, hsame, if_pos hP, ht]
    obtain ⟨P, hP'⟩ : ∃ P, c.tuningPhases = P + 1 := ⟨c.tuningPhases - 1, by omega⟩
    have e1 : (P + 1) * ec.tuningSamples * configs = P * (configs * ec.tuningSamples) + configs * ec.tuningSamples := by
      rw [Nat.mul_assoc, Nat.succ_mul, Nat.mul_comm ec.tuningSamples]
    have e2 : (P + 1) * (ec.tuningInterval + configs * ec.tuningSamples) =
        P * ec.tuningInterval + ec.tuningInterval + (P * (configs * ec.tuningSamples) + configs * ec.tuningSamples) := by
      rw [Nat.mul_add, Nat.succ_mul, Nat.succ_mul]
    have hfit := h.fits
    rw [hP', e2] at hsize
    rw [hP', Nat.add_sub_cancel, e1, Nat.mod_eq_of_lt (by omega)]
    congr 1
    omega

/-- The same from the configuration of the tuner: pairwise interactions only, and all configurations of the search space are applicable. -/
theorem C144_full_search_partial {τ C : Type} [DecidableEq C] {c : MDLoopConfig} {e : MDParts σ} {s : σ} (hI : Intervals c) (hp : c.pause = false)
    {cfg : TunerCfg τ C} {S : List C} {s0 : τ} {t : Tuner τ C} (hinit : Tuner.init cfg S s0 = .ok t) (hfull : cfg.strategies = []) (hsmooth : cfg.smooth = none)
    (hmax : 0 < cfg.maxSamples) (hset : S.Nodup) (htwo : 2 ≤ S.length) (hfit : S.length * cfg.maxSamples < cfg.tuningInterval) (h : Tuned c e s cfg S.length t)
    (hP : 0 < c.tuningPhases) (hit : c.iterations ≤ (c.tuningPhases - 1) * cfg.tuningInterval + S.length * cfg.maxSamples + 1)
    (hsize : c.tuningPhases * (cfg.tuningInterval + S.length * cfg.maxSamples) < 2 ^ 64) (maxEvidence : Nat) :
    ∃ N, (∀ fuel, N < fuel → ∃ l, MDLoop.run c e fuel { s := s } = .ok l ∧ l.iteration = N) ∧
      (EstimateConfig.mk c.iterations c.tuningPhases cfg.tuningInterval cfg.maxSamples maxEvidence false (some S.length) none).estimate =
        (N + (c.tuningPhases - 1) * (S.length * cfg.maxSamples), false) :=
  C144_bound_partial (ec := EstimateConfig.mk c.iterations c.tuningPhases cfg.tuningInterval cfg.maxSamples maxEvidence false (some S.length) none) hI hp hP rfl rfl
    (Or.inl ⟨rfl, by simp⟩) (C144_tunes_first hinit hfull hsmooth hmax hset htwo hfit h) hit hsize

/-- With one tuning phase the estimate is exact. -/
theorem C144_one_phase {c : MDLoopConfig} {e : MDParts σ} {s : σ} (hI : Intervals c) (hp : c.pause = false) {ec : EstimateConfig}
    (hP : c.tuningPhases = 1) (hsame : ec.tuningPhases = c.tuningPhases) (hfull : ec.samplesRandomly = false) {configs : Nat}
    (hspace : (ec.pairwise = some configs ∧ ∀ n, ec.triwise = some n → n ≤ configs) ∨ (ec.triwise = some configs ∧ ∀ n, ec.pairwise = some n → n ≤ configs))
    (h : TunesFirst c e s ec.tuningInterval (configs * ec.tuningSamples)) (hit : c.iterations ≤ configs * ec.tuningSamples + 1)
    (hsize : ec.tuningInterval + configs * ec.tuningSamples < 2 ^ 64) {fuel : Nat} (hf : ec.estimate.1 < fuel) :
    ∃ l, MDLoop.run c e fuel { s := s } = .ok l ∧ l.iteration = ec.estimate.1 := by
  obtain ⟨N, h1, h2⟩ := C144_bound_partial hI hp (by omega) hsame hfull hspace h (by rw [hP]; omega) (by rw [hP]; omega)
  rw [hP] at h2
  simp only [Nat.sub_self, Nat.zero_mul, Nat.add_zero] at h2
  rw [h2] at hf ⊢
  exact h1 fuel hf

/-- Without a limit on tuning phases the estimate is exact, and it is called precise. -/
theorem C144_precise {c : MDLoopConfig} {e : MDParts σ} {s : σ} (hI : Intervals c) (hp : c.pause = false) {ec : EstimateConfig} (hP : c.tuningPhases = 0)
    (hsame : ec.tuningPhases = c.tuningPhases) (hit : ec.iterations = c.iterations) {fuel : Nat} (hf : ec.iterations < fuel) :
    ∃ l, MDLoop.run c e fuel { s := s } = .ok l ∧ ec.estimate = (l.iteration, true) := by
  obtain ⟨l, h1, -, h3⟩ := C136_iterations (s := s) (e := e) hI hp hP fuel (by omega)
  refine ⟨l, h1, ?_⟩
  rw [EstimateConfig.estimate, hsame, hP, h3, hit]
  rfl

/-- Violated: the number of tuning phases is documented to override the number of iterations (MDFlexConfig.h:517), and the estimate assumes this, but a simulation
whose tuning phases are over goes on until the iterations are done. -/
theorem C144_violated_iterations {c : MDLoopConfig} {e : MDParts σ} {s : σ} (hI : Intervals c) (hp : c.pause = false) {interval len : Nat} (h : TunesFirst c e s interval len)
    (hP : 0 < c.tuningPhases) (hit : (c.tuningPhases - 1) * interval + len + 1 < c.iterations) {fuel : Nat} (hf : c.iterations < fuel) :
    ∃ l, MDLoop.run c e fuel { s := s } = .ok l ∧ l.iteration = c.iterations ∧ done { c with iterations := 0 } e s ((c.tuningPhases - 1) * interval + len + 1) := by
  obtain ⟨l, h1, h2⟩ := C144_length (fuel := fuel) hI hp h hP (by omega)
  refine ⟨l, h1, by omega, Nat.zero_le _, ?_⟩
  have := (done_iff (c := c) h hP ((c.tuningPhases - 1) * interval + len + 1 + c.iterations)).2 (by omega)
  have ht : ∀ k, tunes { c with iterations := 0 } e s k = tunes c e s k := by
    have hm : ∀ k s, midStep { c with iterations := 0 } e k s = midStep c e k s := fun _ _ => rfl
    have htr : ∀ k, trajectory { c with iterations := 0 } e s k = trajectory c e s k := by
      intro k
      induction k with
      | zero => rfl
      | succ k ih => simp only [trajectory, ih]; rfl
    intro k
    simp only [tunes, htr, hm]
  have hc : phasesWithin { c with iterations := 0 } e s ((c.tuningPhases - 1) * interval + len + 1) = ((c.tuningPhases - 1) * interval + len + 1 - 1 + interval - len) / interval := by
    rw [← count_ends h.pos h.fits]
    simp only [phasesWithin, ht, h.tunes]
  have hfit := h.fits
  rw [hc, show (c.tuningPhases - 1) * interval + len + 1 - 1 + interval - len = ((c.tuningPhases - 1) + 1) * interval by rw [Nat.succ_mul]; omega,
    Nat.mul_div_cancel _ (by omega)]
  simp only
  omega

section Examples

/-- Only the number of force computations matters; tuning in the first four of every ten. -/
private def counter : MDParts Nat := ⟨id, id, id, (· + 1), fun n => decide ((n - 1) % 10 < 4), id, id, id⟩

private def counterCfg (iterations phases : Nat) : MDLoopConfig := ⟨iterations, phases, false, 0, true, 5, false, 0, false⟩

private theorem counter_step (i p k n : Nat) : midStep (counterCfg i p) counter k n = n + 1 := by
  unfold midStep; split_ifs <;> rfl

private theorem counter_trajectory (i p k : Nat) : trajectory (counterCfg i p) counter 0 k = k := by
  induction k with
  | zero => rfl
  | succ k ih => rw [trajectory, ih, timeStep, counter_step]; split_ifs <;> rfl

private theorem counter_tunes (i p : Nat) : TunesFirst (counterCfg i p) counter 0 10 4 :=
  ⟨by decide, by decide, fun k => by simp only [tunes, counter_trajectory, counter_step]; rfl⟩

/-- Two configurations with two samples each, three phases. -/
private def estimated : EstimateConfig := ⟨10, 3, 10, 2, 10, false, some 2, none⟩

/-- The simulation takes 25 iterations, the progress bar counts to 33. -/
example : ∃ N, (∀ fuel, N < fuel → ∃ l, MDLoop.run (counterCfg 10 3) counter fuel { s := 0 } = .ok l ∧ l.iteration = N) ∧ estimated.estimate = (N + 2 * (2 * 2), false) :=
  C144_bound_partial (ec := estimated) (configs := 2) ⟨by simp [counterCfg], by simp [counterCfg], by simp [counterCfg]⟩ rfl (by simp [counterCfg]) rfl rfl
    (Or.inl ⟨rfl, by simp [estimated]⟩) (counter_tunes 10 3) (by simp [counterCfg, estimated]) (by simp [counterCfg, estimated])

/-- Violated: the estimate is not exact although everything is as its comment assumes. -/
theorem C144_violated_exact : ∃ l, MDLoop.run (counterCfg 10 3) counter 30 { s := 0 } = .ok l ∧ l.iteration = 25 ∧ estimated.estimate = (33, false) := by
  obtain ⟨l, h1, h2⟩ := C144_length (c := counterCfg 10 3) (fuel := 30) ⟨by simp [counterCfg], by simp [counterCfg], by simp [counterCfg]⟩ rfl (counter_tunes 10 3)
    (by simp [counterCfg]) (by simp [counterCfg])
  exact ⟨l, h1, h2.trans rfl, by decide +kernel⟩

/-- One phase and 100 iterations: the phase is over after 5, the simulation after 100, and the progress bar counts to 5. -/
example : (∃ l, MDLoop.run (counterCfg 100 1) counter 101 { s := 0 } = .ok l ∧ l.iteration = 100) ∧
    ({ estimated with iterations := 100, tuningPhases := 1 } : EstimateConfig).estimate = (5, false) := by
  obtain ⟨l, h1, h2, -⟩ := C144_violated_iterations (c := counterCfg 100 1) (fuel := 101) ⟨by simp [counterCfg], by simp [counterCfg], by simp [counterCfg]⟩ rfl
    (counter_tunes 100 1) (by simp [counterCfg]) (by simp [counterCfg]) (by simp [counterCfg])
  exact ⟨⟨l, h1, h2⟩, by decide +kernel⟩

/-- A tuner with two configurations, two samples and an interval of ten. -/
private def twoCfg : TunerCfg Unit Nat := { tuningInterval := 10, maxSamples := 2, rebuildFrequency := 3, selector := .fastestAbs, strategies := [], smooth := none }

private theorem two_measurements (m : Nat) : Measurements twoCfg 2 m (List.replicate m (List.replicate 10 (1, true))) := by
  refine ⟨by simp, fun xs h => ?_, fun xs h i hi => ?_⟩
  · rw [(List.mem_replicate.1 h).2]; rfl
  · rw [(List.mem_replicate.1 h).2]
    have : i = 0 ∨ i = 1 := by omega
    rcases this with rfl | rfl <;> decide +kernel

/-- The simulation of the examples is tuned by it. -/
example : ∃ t, Tuner.init twoCfg [7, 8] () = .ok t ∧ Tuned (counterCfg 10 3) counter 0 twoCfg 2 t := by
  refine ⟨_, rfl, fun m => ⟨_, two_measurements m, fun l hl k hk => ?_⟩⟩
  obtain ⟨l', h1, -, h3⟩ := C144_tuning_iterations (cfg := twoCfg) (S := [7, 8]) (s := ()) rfl rfl rfl (by decide) (by decide) (by decide) (by decide) (two_measurements m)
  have : l' = l := Outcome.ok.inj (h1.symm.trans hl)
  subst this
  rw [h3 k hk, (counter_tunes 10 3).tunes k]
  rfl

end Examples

end Verif
