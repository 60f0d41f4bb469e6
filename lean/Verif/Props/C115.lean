import Verif.Lemmas.GaussianMixture
import Verif.Lemmas.Cholesky
/-!
C115: predictions of the Gaussian process used by Bayesian tuning.

`env.Ok`: shuffling permutes, sorting sorts, the Cholesky decomposition of a positive definite matrix is one. `sigma` is the noise of the observations.
-/
namespace Verif
open Spec

/-- The process knows exactly the observations since the last `clear`; the best one is the first with the greatest value. -/
theorem C115_evidence {d : ℕ} (env : GaussEnv) (sigma : ℝ) (as : List (GaussAction d)) :
    let g := GaussProc.run env sigma as
    List.ofFn (fun i => (g.inputs i, g.outputs i)) = observed as ∧
      (observed as ≠ [] → ((∃ o ∈ observed as, o.2 = g.evidenceMin) ∧ ∀ o ∈ observed as, g.evidenceMin ≤ o.2) ∧
        ∃ pre o post, observed as = pre ++ o :: post ∧ g.evidenceMax = o.2 ∧ g.evidenceMaxVector = some o.1 ∧ (∀ q ∈ pre, q.2 < o.2) ∧
          ∀ q ∈ post, q.2 ≤ o.2) := by
  have h := run_knows (env := env) (sigma := sigma) as
  exact ⟨h.evidence, fun hne => ⟨h.least hne, h.greatest hne⟩⟩

/-- Predictions are averages, with positive weights that add up to one, of best linear predictions from the observations, and the reported variance is the
average of their expected squared errors. It is positive and never more than without observations. -/
theorem C115_prediction {d : ℕ} {env : GaussEnv} (henv : env.Ok) {sigma : ℝ} (hsig : 0 < sigma) (as : List (GaussAction d)) (x : Fin d → ℝ) :
    let g := GaussProc.run env sigma as
    (∀ h ∈ g.hypers, 0 < h.score) ∧ (g.hypers.map fun h => h.score).sum = 1 ∧
      (∃ a : GaussHyper d g.n → Fin g.n → ℝ,
        (∀ h ∈ g.hypers, BestWeights (sqExp h.theta h.dimScales) sigma g.inputs x (a h)) ∧
        g.predictMean x = (g.hypers.map fun h => h.score * (h.mean + ∑ i, a h i * (g.outputs i - h.mean))).sum ∧
        g.predictVar x = (g.hypers.map fun h => h.score * linearError (sqExp h.theta h.dimScales) sigma g.inputs x (a h)).sum) ∧
      0 < g.predictVar x ∧ g.predictVar x ≤ g.defaultVar := by
  intro g
  have hk := run_knows (env := env) (sigma := sigma) as
  have hok : HypersOk env sigma g.inputs g.outputs g.hypers := hk.ok henv hsig
  refine ⟨hok.score, hok.sum, ?_, ?_, ?_⟩
  · classical
    have hex : ∀ h : GaussHyper d g.n, ∃ a, h ∈ g.hypers → BestWeights (sqExp h.theta h.dimScales) sigma g.inputs x a ∧
        gpHyperMean g.inputs h x = h.mean + ∑ i, a i * (g.outputs i - h.mean) ∧
        gpHyperVar g.inputs h x = linearError (sqExp h.theta h.dimScales) sigma g.inputs x a := by
      intro h
      by_cases hh : h ∈ g.hypers
      · obtain ⟨a, a1, a2, a3, -⟩ := hyper_predict hsig hok hh x
        exact ⟨a, fun _ => ⟨a1, a2, a3⟩⟩
      · exact ⟨0, fun h' => absurd h' hh⟩
    choose a ha using hex
    refine ⟨a, fun h hh => (ha h hh).1, ?_, ?_⟩
    · unfold GaussProc.predictMean
      congr 1
      apply List.map_congr_left
      intro h hh
      rw [(ha h hh).2.1]
    · unfold GaussProc.predictVar
      congr 1
      apply List.map_congr_left
      intro h hh
      rw [(ha h hh).2.2]
  · unfold GaussProc.predictVar
    have hne : g.hypers ≠ [] := by
      intro he
      have := hok.sum
      rw [he] at this
      simp at this
    obtain ⟨h, hh⟩ := List.exists_mem_of_ne_nil _ hne
    have hpos : ∀ h ∈ g.hypers, 0 < h.score * gpHyperVar g.inputs h x := by
      intro h hh
      obtain ⟨a, -, -, -, a4, -⟩ := hyper_predict hsig hok hh x
      exact mul_pos (hok.score h hh) a4
    exact sum_pos_of_exists (fun h hh => (hpos h hh).le) hh (hpos h hh)
  · unfold GaussProc.predictVar GaussProc.defaultVar
    apply List.sum_le_sum
    intro h hh
    obtain ⟨a, -, -, -, -, a5⟩ := hyper_predict hsig hok hh x
    exact mul_le_mul_of_nonneg_left a5 (hok.score h hh).le

/-- Without observations every value is predicted as 0 with variance 1. -/
theorem C115_no_evidence {d : ℕ} (env : GaussEnv) (sigma : ℝ) (as : List (GaussAction d)) (h0 : observed as = []) (x : Fin d → ℝ) :
    (GaussProc.run env sigma as).predictMean x = 0 ∧ (GaussProc.run env sigma as).predictVar x = 1 := by
  have h := run_knows (env := env) (sigma := sigma) as
  have hn := h.n_eq
  rw [h0] at hn
  obtain ⟨r, hr⟩ := h.tuned
  have hn0 : (GaussProc.run env sigma as).n = 0 := hn
  unfold gpTune at hr
  rw [if_pos hn0] at hr
  unfold GaussProc.predictMean GaussProc.predictVar gpHyperMean gpHyperVar
  rw [hr]
  simp only [if_pos hn0]
  simp [gpPrecalculate]

/-- Once there are observations, 100 sets of hyperparameters are used. Their weights are proportional to the likelihood of the observations, means lie
between the observed values, and no other of the 10000 drawn sets explains the observations better. -/
theorem C115_likelihood {d : ℕ} {env : GaussEnv} (henv : env.Ok) {sigma : ℝ} (hsig : 0 < sigma) (as : List (GaussAction d)) (hne : observed as ≠ []) :
    let g := GaussProc.run env sigma as
    let lik := fun (m th : ℝ) (sc : Fin d → ℝ) => normalLikelihood (obsCov (sqExp th sc) sigma g.inputs) fun i => g.outputs i - m
    g.hypers.length = 100 ∧
      (∀ h ∈ g.hypers, ∀ h' ∈ g.hypers, h.score * lik h'.mean h'.theta h'.dimScales = h'.score * lik h.mean h.theta h.dimScales) ∧
      (∀ h ∈ g.hypers, g.evidenceMin ≤ h.mean ∧ h.mean ≤ g.evidenceMax ∧ sigma ≤ h.theta ∧ ∀ k, 0 ≤ h.dimScales k) ∧
      ∃ r, ∀ t < 10000, (∃ h ∈ g.hypers, (h.mean, h.theta, h.dimScales) = gpSample env r sigma g.evidenceMin g.evidenceMax t) ∨
        ∀ h ∈ g.hypers, lik (gpSample (d := d) env r sigma g.evidenceMin g.evidenceMax t).1 (gpSample (d := d) env r sigma g.evidenceMin g.evidenceMax t).2.1
          (gpSample env r sigma g.evidenceMin g.evidenceMax t).2.2 ≤ lik h.mean h.theta h.dimScales := by
  intro g lik
  have hk : g.Knows env sigma (observed as) := run_knows (env := env) (sigma := sigma) as
  have hn : g.n ≠ 0 := by
    rw [hk.n_eq]
    exact fun h => hne (List.length_eq_zero_iff.1 h)
  have hle : g.evidenceMin ≤ g.evidenceMax := by
    obtain ⟨pre, o, post, e1, e2, -, -, -⟩ := hk.greatest hne
    rw [e2]
    exact (hk.least hne).2 o (by rw [e1]; simp)
  obtain ⟨r, hr⟩ := hk.tuned
  obtain ⟨idx, Z, z1, z2, z3, z4, z5, z6, z7⟩ := gpTune_spec henv hsig hn (inputs := g.inputs) (outputs := g.outputs) hle r
  rw [← hr] at z5
  rw [z5]
  refine ⟨by rw [List.length_map, z2]; rfl, ?_, ?_, r, ?_⟩
  · intro h hh h' hh'
    obtain ⟨t, ht, rfl⟩ := List.mem_map.1 hh
    obtain ⟨t', ht', rfl⟩ := List.mem_map.1 hh'
    show gpLikelihood _ _ _ _ _ _ / Z * gpLikelihood _ _ _ _ _ _ = gpLikelihood _ _ _ _ _ _ / Z * gpLikelihood _ _ _ _ _ _
    rw [div_mul_eq_mul_div, div_mul_eq_mul_div]
    congr 1
    exact mul_comm _ _
  · intro h hh
    obtain ⟨t, ht, rfl⟩ := List.mem_map.1 hh
    exact gpSample_range henv hle r (z4 t ht)
  · intro t ht
    by_cases htm : t ∈ idx
    · left
      exact ⟨_, List.mem_map_of_mem htm, rfl⟩
    · right
      intro h hh
      obtain ⟨t', ht', rfl⟩ := List.mem_map.1 hh
      exact z7 t ht htm t' ht'

/-- The reported variance leaves out that the sets of hyperparameters predict different values. -/
theorem C115_variance_gap {d : ℕ} {env : GaussEnv} (henv : env.Ok) {sigma : ℝ} (hsig : 0 < sigma) (as : List (GaussAction d)) (x : Fin d → ℝ) :
    let g := GaussProc.run env sigma as
    mixtureVariance (g.hypers.map fun h => (h.score, gpHyperMean g.inputs h x, gpHyperVar g.inputs h x)) =
      g.predictVar x + (g.hypers.map fun h => h.score * (gpHyperMean g.inputs h x - g.predictMean x) ^ 2).sum := by
  intro g
  have hok : HypersOk env sigma g.inputs g.outputs g.hypers := (run_knows (env := env) (sigma := sigma) as).ok henv hsig
  rw [mixture_identity]
  · simp only [List.map_map]
    rfl
  · rw [List.map_map]
    exact hok.sum

/-- So it can be too small: after two different observations there is a place where the prediction, seen as the mixture of the predictions of all sets of
hyperparameters, varies more than reported, whatever is drawn. -/
theorem C115_violated_variance {env : GaussEnv} (henv : env.Ok) {sigma : ℝ} (hsig : 0 < sigma) :
    ∃ (as : List (GaussAction 1)) (x : Fin 1 → ℝ),
      let g := GaussProc.run env sigma as
      g.predictVar x < mixtureVariance (g.hypers.map fun h => (h.score, gpHyperMean g.inputs h x, gpHyperVar g.inputs h x)) := by
  obtain ⟨as, has⟩ : ∃ as : List (GaussAction 1), as = [.addEvidence (fun _ => 0) 0, .addEvidence (fun _ => 1) 1] := ⟨_, rfl⟩
  obtain ⟨g, hg⟩ : ∃ g, g = GaussProc.run env sigma as := ⟨_, rfl⟩
  have hk : g.Knows env sigma (observed as) := by rw [hg]; exact run_knows as
  have hobs : observed as = [((fun _ => 0), 0), ((fun _ => 1), 1)] := by rw [has]; rfl
  rw [hobs] at hk
  have hn : g.n ≠ 0 := by rw [hk.n_eq]; simp
  have hlt : g.evidenceMin < g.evidenceMax := by
    have h1 := (hk.least (by simp)).2 ((fun _ => 0), 0) (by simp)
    obtain ⟨pre, o, post, e1, e2, -, e4, e5⟩ := hk.greatest (by simp)
    have hm : ((fun _ => 1), 1) ∈ pre ++ o :: post := by rw [← e1]; simp
    have h2 : (1 : ℝ) ≤ o.2 := by
      rcases List.mem_append.1 hm with hm | hm
      · exact (e4 _ hm).le
      · rcases List.mem_cons.1 hm with hm | hm
        · rw [← hm]
        · exact e5 _ hm
    rw [e2]
    simp only at h1
    linarith
  obtain ⟨r, hr⟩ := hk.tuned
  have hok : HypersOk env sigma g.inputs g.outputs g.hypers := hk.ok henv hsig
  obtain ⟨X, h1, m1, h2, m2, hd⟩ := means_differ henv hsig hn (inputs := g.inputs) (outputs := g.outputs) hlt r
  rw [← hr] at m1 m2
  refine ⟨as, fun _ => X, ?_⟩
  have hgap := C115_variance_gap henv hsig as fun _ => X
  subst hg
  simp only at hgap ⊢
  rw [hgap]
  have hnn : ∀ h ∈ (GaussProc.run env sigma as).hypers, 0 ≤ h.score * (gpHyperMean (GaussProc.run env sigma as).inputs h (fun _ => X) - (GaussProc.run env sigma as).predictMean fun _ => X) ^ 2 :=
    fun h hh => mul_nonneg (hok.score h hh).le (sq_nonneg _)
  have : 0 < ((GaussProc.run env sigma as).hypers.map fun h => h.score * (gpHyperMean (GaussProc.run env sigma as).inputs h (fun _ => X) - (GaussProc.run env sigma as).predictMean fun _ => X) ^ 2).sum := by
    by_cases hc : gpHyperMean (GaussProc.run env sigma as).inputs h1 (fun _ => X) = (GaussProc.run env sigma as).predictMean fun _ => X
    · have h3 : gpHyperMean (GaussProc.run env sigma as).inputs h2 (fun _ => X) - ((GaussProc.run env sigma as).predictMean fun _ => X) ≠ 0 := by
        rw [← hc]; exact sub_ne_zero.2 (Ne.symm hd)
      exact sum_pos_of_exists hnn m2 (mul_pos (hok.score h2 m2) (by positivity))
    · have h3 : gpHyperMean (GaussProc.run env sigma as).inputs h1 (fun _ => X) - ((GaussProc.run env sigma as).predictMean fun _ => X) ≠ 0 := sub_ne_zero.2 hc
      exact sum_pos_of_exists hnn m1 (mul_pos (hok.score h1 m1) (by positivity))
  linarith

/-- The hypotheses are met: there is such an environment, and a history with two observations after everything was forgotten. -/
example : someGaussEnv.Ok ∧ observed ([.addEvidence (fun _ => 5) 7, .clear, .addEvidence (fun _ => 0) 0, .addEvidence (fun _ => 1) 1] : List (GaussAction 2)) =
    [((fun _ => 0), 0), ((fun _ => 1), 1)] := ⟨someGaussEnv_ok, rfl⟩

end Verif
