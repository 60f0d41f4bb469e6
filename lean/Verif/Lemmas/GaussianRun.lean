import Verif.Lemmas.GaussianProcess
/-! Histories of a Gaussian process. -/
namespace Verif
open Spec Finset

section
variable {d : ℕ} {env : GaussEnv} {sigma : ℝ}

/-- What a process knows after the observations `obs`. -/
structure GaussProc.Knows (env : GaussEnv) (sigma : ℝ) (g : GaussProc d) (obs : List ((Fin d → ℝ) × ℝ)) : Prop where
  evidence : List.ofFn (fun i => (g.inputs i, g.outputs i)) = obs
  tuned : ∃ r, g.hypers = gpTune env sigma r g.inputs g.outputs g.evidenceMin g.evidenceMax
  least : obs ≠ [] → (∃ o ∈ obs, o.2 = g.evidenceMin) ∧ ∀ o ∈ obs, g.evidenceMin ≤ o.2
  greatest : obs ≠ [] → ∃ pre o post, obs = pre ++ o :: post ∧ g.evidenceMax = o.2 ∧ g.evidenceMaxVector = some o.1 ∧ (∀ q ∈ pre, q.2 < o.2) ∧
    ∀ q ∈ post, q.2 ≤ o.2

theorem GaussProc.Knows.n_eq {g : GaussProc d} {obs} (h : g.Knows env sigma obs) : g.n = obs.length := by
  have := congrArg List.length h.evidence
  rwa [List.length_ofFn] at this

theorem empty_knows (lo hi : ℝ) (v) (r : ℕ) : (GaussProc.empty (d := d) env sigma lo hi v r).Knows env sigma [] where
  evidence := rfl
  tuned := ⟨r, rfl⟩
  least := fun h => absurd rfl h
  greatest := fun h => absurd rfl h

theorem addEvidence_knows {g : GaussProc d} {obs} (h : g.Knows env sigma obs) (x : Fin d → ℝ) (y : ℝ) :
    (g.addEvidence env sigma x y).Knows env sigma (obs ++ [(x, y)]) := by
  have hn := h.n_eq
  constructor
  · rw [← h.evidence]
    unfold GaussProc.addEvidence
    simp only
    rw [List.ofFn_succ']
    simp [List.concat_eq_append]
  · exact ⟨g.tunes, rfl⟩
  · intro _
    unfold GaussProc.addEvidence
    simp only
    by_cases h0 : g.n = 0
    · have ho : obs = [] := List.length_eq_zero_iff.1 (by omega)
      subst ho
      rw [if_pos h0]
      simp
    · have hne : obs ≠ [] := by rintro rfl; simp at hn; exact h0 hn
      obtain ⟨⟨o, ho1, ho2⟩, hle⟩ := h.least hne
      rw [if_neg h0]
      split_ifs with h1 h2
      · refine ⟨⟨(x, y), by simp, rfl⟩, fun q hq => ?_⟩
        rcases List.mem_append.1 hq with hq | hq
        · have := hle q hq; simp only; linarith
        · rw [List.mem_singleton.1 hq]
      · refine ⟨⟨o, by simp [ho1], ho2⟩, fun q hq => ?_⟩
        rcases List.mem_append.1 hq with hq | hq
        · exact hle q hq
        · rw [List.mem_singleton.1 hq]; exact not_lt.1 h1
      · refine ⟨⟨o, by simp [ho1], ho2⟩, fun q hq => ?_⟩
        rcases List.mem_append.1 hq with hq | hq
        · exact hle q hq
        · rw [List.mem_singleton.1 hq]; exact not_lt.1 h1
  · intro _
    unfold GaussProc.addEvidence
    simp only
    by_cases h0 : g.n = 0
    · have ho : obs = [] := List.length_eq_zero_iff.1 (by omega)
      subst ho
      rw [if_pos h0]
      exact ⟨[], (x, y), [], rfl, rfl, rfl, by simp, by simp⟩
    · have hne : obs ≠ [] := by rintro rfl; simp at hn; exact h0 hn
      obtain ⟨pre, o, post, e1, e2, e3, e4, e5⟩ := h.greatest hne
      obtain ⟨⟨q, hq1, hq2⟩, -⟩ := h.least hne
      have hall : ∀ q ∈ obs, q.2 ≤ o.2 := by
        intro q hq
        rw [e1] at hq
        rcases List.mem_append.1 hq with hq | hq
        · exact (e4 q hq).le
        · rcases List.mem_cons.1 hq with rfl | hq
          · exact le_refl _
          · exact e5 q hq
      rw [if_neg h0]
      have keep : y ≤ g.evidenceMax → ∃ pre o post, obs ++ [(x, y)] = pre ++ o :: post ∧ g.evidenceMax = o.2 ∧ g.evidenceMaxVector = some o.1 ∧
          (∀ q ∈ pre, q.2 < o.2) ∧ ∀ q ∈ post, q.2 ≤ o.2 := by
        intro hy
        refine ⟨pre, o, post ++ [(x, y)], by rw [e1]; simp, e2, e3, e4, fun q hq => ?_⟩
        rcases List.mem_append.1 hq with hq | hq
        · exact e5 q hq
        · rw [List.mem_singleton.1 hq, ← e2]; exact hy
      split_ifs with h1 h2
      · apply keep
        have := hall q hq1
        rw [hq2, ← e2] at this
        linarith
      · refine ⟨obs, (x, y), [], rfl, rfl, rfl, fun q hq => ?_, by simp⟩
        have := hall q hq
        rw [← e2] at this
        exact lt_of_le_of_lt this h2
      · exact keep (not_lt.1 h2)

theorem run_knows (as : List (GaussAction d)) : (GaussProc.run env sigma as).Knows env sigma (observed as) := by
  unfold GaussProc.run observed
  have gen : ∀ (as : List (GaussAction d)) (g : GaussProc d) obs, g.Knows env sigma obs →
      (as.foldl (GaussProc.step env sigma) g).Knows env sigma (as.foldl (fun acc a => match a with
        | .clear => []
        | .addEvidence x y => acc ++ [(x, y)]) obs) := by
    intro as
    induction as with
    | nil => intro g obs h; exact h
    | cons a as ih =>
      intro g obs h
      rw [List.foldl_cons, List.foldl_cons]
      apply ih
      cases a with
      | clear => exact empty_knows _ _ _ _
      | addEvidence x y => exact addEvidence_knows h x y
  exact gen as _ _ (empty_knows _ _ _ _)

/-- The sets of hyperparameters that are used. -/
structure HypersOk {n : ℕ} (env : GaussEnv) (sigma : ℝ) (inputs : Fin n → Fin d → ℝ) (outputs : Fin n → ℝ) (hs : List (GaussHyper d n)) : Prop where
  score : ∀ h ∈ hs, 0 < h.score
  sum : (hs.map GaussHyper.score).sum = 1
  theta : ∀ h ∈ hs, 0 < h.theta
  scale : ∀ h ∈ hs, ∀ k, 0 ≤ h.dimScales k
  solved : ∀ h ∈ hs, h.covMatInv = (obsCov (sqExp h.theta h.dimScales) sigma inputs)⁻¹ ∧ h.weights = h.covMatInv.mulVec fun i => outputs i - h.mean

/-- How the sets of hyperparameters come about once there is evidence. -/
theorem gpTune_spec (henv : env.Ok) (hsig : 0 < sigma) {n : ℕ} (hn : n ≠ 0) {inputs : Fin n → Fin d → ℝ} {outputs : Fin n → ℝ} {lo hi : ℝ} (h : lo ≤ hi) (r : ℕ) :
    ∃ (idx : List ℕ) (Z : ℝ), 0 < Z ∧ idx.length = gpHyperSize ∧ idx.Nodup ∧ (∀ i ∈ idx, i < gpSampleSize) ∧
      gpTune env sigma r inputs outputs lo hi = idx.map (fun t =>
        { gpPrecalculate env sigma inputs outputs (gpSample (d := d) env r sigma lo hi t).1 (gpSample (d := d) env r sigma lo hi t).2.1
          (gpSample (d := d) env r sigma lo hi t).2.2 with
          score := gpLikelihood sigma inputs outputs (gpSample (d := d) env r sigma lo hi t).1 (gpSample (d := d) env r sigma lo hi t).2.1
            (gpSample (d := d) env r sigma lo hi t).2.2 / Z }) ∧
      Z = (idx.map fun t => gpLikelihood sigma inputs outputs (gpSample (d := d) env r sigma lo hi t).1 (gpSample (d := d) env r sigma lo hi t).2.1
            (gpSample (d := d) env r sigma lo hi t).2.2).sum ∧
      ∀ j < gpSampleSize, j ∉ idx → ∀ i ∈ idx,
        gpLikelihood sigma inputs outputs (gpSample (d := d) env r sigma lo hi j).1 (gpSample (d := d) env r sigma lo hi j).2.1
            (gpSample (d := d) env r sigma lo hi j).2.2 ≤
          gpLikelihood sigma inputs outputs (gpSample (d := d) env r sigma lo hi i).1 (gpSample (d := d) env r sigma lo hi i).2.1
            (gpSample (d := d) env r sigma lo hi i).2.2 := by
  obtain ⟨H, hH⟩ : ∃ H, H = gpSetHyperparameters env sigma inputs outputs (gpSamples env r d sigma lo hi) := ⟨_, rfl⟩
  have hHeq := hH
  rw [gpSetHyperparameters_eq henv h r] at hHeq
  have hlen : H.length = gpSampleSize := by rw [hHeq]; simp
  have hsc : ∀ t, t < gpSampleSize → (gpPrecalculate env sigma inputs outputs (gpSample (d := d) env r sigma lo hi t).1
      (gpSample (d := d) env r sigma lo hi t).2.1 (gpSample (d := d) env r sigma lo hi t).2.2).score =
      gpLikelihood sigma inputs outputs (gpSample (d := d) env r sigma lo hi t).1 (gpSample (d := d) env r sigma lo hi t).2.1
            (gpSample (d := d) env r sigma lo hi t).2.2 := by
    intro t ht
    obtain ⟨-, -, g3, g4⟩ := gpSample_range (d := d) (sigma := sigma) henv h r ht
    exact precalculate_score henv hsig (hsig.le.trans g3) g4
  have hgetD : ∀ t, t < gpSampleSize → (H.map GaussHyper.score).getD t 0 =
      gpLikelihood sigma inputs outputs (gpSample (d := d) env r sigma lo hi t).1 (gpSample (d := d) env r sigma lo hi t).2.1
            (gpSample (d := d) env r sigma lo hi t).2.2 := by
    intro t ht
    rw [List.getD_eq_getElem _ _ (by simpa [hlen] using ht), ← hsc t ht]
    simp [hHeq]
  obtain ⟨idx, Z, z1, z2, z3, z4, z5, z6, z7⟩ := gpNormalize_spec henv (hypers := H) (by rw [hlen]; decide) (by
    intro g hg
    rw [hHeq] at hg
    obtain ⟨t, ht, rfl⟩ := List.mem_map.1 hg
    rw [List.mem_range] at ht
    obtain ⟨-, -, g3, g4⟩ := gpSample_range (d := d) (sigma := sigma) henv h r ht
    rw [hsc t ht]
    exact gpLikelihood_pos hsig (hsig.le.trans g3) g4)
  rw [hlen] at z4 z7
  refine ⟨idx, Z, z1, z2, z3, z4, ?_, ?_, ?_⟩
  · unfold gpTune
    rw [if_neg hn, ← hH, z5]
    have gen : ∀ l : List ℕ, (∀ i ∈ l, i < gpSampleSize) → (l.filterMap fun i => H[i]?.map fun h => { h with score := h.score / Z }) = l.map (fun t =>
        { gpPrecalculate env sigma inputs outputs (gpSample (d := d) env r sigma lo hi t).1 (gpSample (d := d) env r sigma lo hi t).2.1
          (gpSample (d := d) env r sigma lo hi t).2.2 with
          score := gpLikelihood sigma inputs outputs (gpSample (d := d) env r sigma lo hi t).1 (gpSample (d := d) env r sigma lo hi t).2.1
            (gpSample (d := d) env r sigma lo hi t).2.2 / Z }) := by
      intro l
      induction l with
      | nil => intro _; rfl
      | cons a l ih =>
        intro hl
        have ha := hl a (by simp)
        rw [List.filterMap_cons_some (b := { gpPrecalculate env sigma inputs outputs (gpSample (d := d) env r sigma lo hi a).1 (gpSample (d := d) env r sigma lo hi a).2.1
          (gpSample (d := d) env r sigma lo hi a).2.2 with
          score := gpLikelihood sigma inputs outputs (gpSample (d := d) env r sigma lo hi a).1 (gpSample (d := d) env r sigma lo hi a).2.1
            (gpSample (d := d) env r sigma lo hi a).2.2 / Z }), List.map_cons, ih (fun i hi => hl i (by simp [hi]))]
        rw [hHeq, List.getElem?_map, List.getElem?_range ha]
        simp only [Option.map_some]
        rw [hsc a ha]
    exact gen idx z4
  · rw [z6]
    congr 1
    apply List.map_congr_left
    intro t ht
    exact hgetD t (z4 t ht)
  · intro j hj hjn i hi
    have := z7 j hj hjn i hi
    rwa [hgetD j hj, hgetD i (z4 i hi)] at this

theorem gpTune_ok (henv : env.Ok) (hsig : 0 < sigma) {n : ℕ} {inputs : Fin n → Fin d → ℝ} {outputs : Fin n → ℝ} {lo hi : ℝ} (h : n ≠ 0 → lo ≤ hi) (r : ℕ) :
    HypersOk env sigma inputs outputs (gpTune env sigma r inputs outputs lo hi) := by
  by_cases hn : n = 0
  · have he : gpTune env sigma r inputs outputs lo hi = [{ gpPrecalculate env sigma inputs outputs 0 1 (fun _ => 1) with score := 1 }] := by
      unfold gpTune; rw [if_pos hn]
    rw [he]
    constructor
    · intro g hg; rw [List.mem_singleton.1 hg]; exact one_pos
    · simp
    · intro g hg; rw [List.mem_singleton.1 hg]; exact one_pos
    · intro g hg; rw [List.mem_singleton.1 hg]; exact fun _ => zero_le_one
    · intro g hg; rw [List.mem_singleton.1 hg]
      refine ⟨?_, rfl⟩
      show (gpCovMat sigma inputs 1 fun _ => 1)⁻¹ = _
      rw [gpCovMat_eq]
      rfl
  · obtain ⟨idx, Z, z1, z2, z3, z4, z5, z6, z7⟩ := gpTune_spec henv hsig hn (inputs := inputs) (outputs := outputs) (h hn) r
    rw [z5]
    have hr := fun t (ht : t ∈ idx) => gpSample_range (d := d) (sigma := sigma) henv (h hn) r (z4 t ht)
    constructor
    · intro g hg
      obtain ⟨t, ht, rfl⟩ := List.mem_map.1 hg
      exact div_pos (gpLikelihood_pos hsig (hsig.le.trans (hr t ht).2.2.1) (hr t ht).2.2.2) z1
    · rw [List.map_map]
      have gen : ∀ l : List ℕ, ∀ f : ℕ → ℝ, (l.map fun t => f t / Z).sum = (l.map f).sum / Z := by
        intro l f
        induction l with
        | nil => simp
        | cons a l ih => rw [List.map_cons, List.sum_cons, ih, List.map_cons, List.sum_cons, add_div]
      have := gen idx fun t => gpLikelihood sigma inputs outputs (gpSample (d := d) env r sigma lo hi t).1 (gpSample (d := d) env r sigma lo hi t).2.1
            (gpSample (d := d) env r sigma lo hi t).2.2
      rw [← z6, div_self z1.ne'] at this
      exact this
    · intro g hg
      obtain ⟨t, ht, rfl⟩ := List.mem_map.1 hg
      exact lt_of_lt_of_le hsig (hr t ht).2.2.1
    · intro g hg
      obtain ⟨t, ht, rfl⟩ := List.mem_map.1 hg
      exact (hr t ht).2.2.2
    · intro g hg
      obtain ⟨t, ht, rfl⟩ := List.mem_map.1 hg
      refine ⟨?_, rfl⟩
      show (gpCovMat sigma inputs _ _)⁻¹ = _
      rw [gpCovMat_eq]
      rfl

/-- One set of hyperparameters predicts in the best way. -/
theorem hyper_predict (hsig : 0 < sigma) {n : ℕ} {inputs : Fin n → Fin d → ℝ} {outputs : Fin n → ℝ} {hs : List (GaussHyper d n)}
    (hok : HypersOk env sigma inputs outputs hs) {h : GaussHyper d n} (hh : h ∈ hs) (x : Fin d → ℝ) :
    ∃ a, BestWeights (sqExp h.theta h.dimScales) sigma inputs x a ∧ gpHyperMean inputs h x = h.mean + ∑ i, a i * (outputs i - h.mean) ∧
      gpHyperVar inputs h x = linearError (sqExp h.theta h.dimScales) sigma inputs x a ∧ 0 < gpHyperVar inputs h x ∧ gpHyperVar inputs h x ≤ h.theta := by
  obtain ⟨b1, b2, b3, b4, b5⟩ := best_weights (inputs := inputs) hsig (hok.theta h hh) (hok.scale h hh) x
  obtain ⟨c1, c2⟩ := hok.solved h hh
  have hvar : gpHyperVar inputs h x = h.theta - (fun i => sqExp h.theta h.dimScales x (inputs i)) ⬝ᵥ
      (obsCov (sqExp h.theta h.dimScales) sigma inputs)⁻¹.mulVec fun i => sqExp h.theta h.dimScales x (inputs i) := by
    unfold gpHyperVar
    by_cases hn : n = 0
    · subst hn; simp [dotProduct]
    · rw [if_neg hn, c1]
      simp only [gpKernel_eq, sqExp_self]
      rfl
  refine ⟨_, b1, ?_, ?_, ?_, ?_⟩
  · unfold gpHyperMean
    by_cases hn : n = 0
    · subst hn; simp
    · rw [if_neg hn]
      congr 1
      have := b5 fun i => outputs i - h.mean
      rw [← c1, ← c2] at this
      simp only [gpKernel_eq]
      rw [← c1]
      exact this
  · rw [hvar, b2]
  · rw [hvar]; exact b3
  · rw [hvar]; exact b4

theorem GaussProc.Knows.ok (henv : env.Ok) (hsig : 0 < sigma) {g : GaussProc d} {obs} (h : g.Knows env sigma obs) :
    HypersOk env sigma g.inputs g.outputs g.hypers := by
  obtain ⟨r, hr⟩ := h.tuned
  rw [hr]
  apply gpTune_ok henv hsig
  intro hn
  have hne : obs ≠ [] := by
    rintro rfl
    exact hn (by simpa using h.n_eq)
  obtain ⟨pre, o, post, e1, e2, -, -, -⟩ := h.greatest hne
  rw [e2]
  exact (h.least hne).2 o (by rw [e1]; simp)

end

end Verif
