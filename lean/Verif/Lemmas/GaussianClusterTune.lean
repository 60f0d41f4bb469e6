import Verif.Model.GaussianCluster
import Verif.Lemmas.GaussianRun
/-! The hyperparameters of all clusters. -/
namespace Verif
open Spec

section
variable {d : ℕ} {env : GaussEnv} {sigma : ℝ}

/-- One of `m` sets of hyperparameters. -/
noncomputable def gpSampleOf (env : GaussEnv) (m r : ℕ) (sigma lo hi : ℝ) (t : ℕ) : ℝ × ℝ × (Fin d → ℝ) :=
  ((gpSamplesOf env m r d sigma lo hi).1.getD t 0, (gpSamplesOf env m r d sigma lo hi).2.1.getD t 0,
    fun k => ((gpSamplesOf env m r d sigma lo hi).2.2 k).getD t 0)

theorem gpSampleOf_range (henv : env.Ok) {lo hi : ℝ} (h : lo ≤ hi) (m r : ℕ) {t : ℕ} (ht : t < m) :
    lo ≤ (gpSampleOf (d := d) env m r sigma lo hi t).1 ∧ (gpSampleOf (d := d) env m r sigma lo hi t).1 ≤ hi ∧
      sigma ≤ (gpSampleOf (d := d) env m r sigma lo hi t).2.1 ∧ ∀ k, 0 ≤ (gpSampleOf (d := d) env m r sigma lo hi t).2.2 k := by
  obtain ⟨-, a1, a2⟩ := shuffled_grid henv h r 0 _ _ ht
  obtain ⟨-, b1, -⟩ := shuffled_grid henv (lo := sigma) (hi := gpThetaMax sigma lo hi) (le_max_right _ _) r 1 _ _ ht
  refine ⟨a1, a2, b1, fun k => ?_⟩
  exact (shuffled_grid henv (lo := 0) (hi := 5 + max 0 (Real.log (gpThetaMax sigma lo hi))) (by have := le_max_left 0 (Real.log (gpThetaMax sigma lo hi)); linarith)
    r (2 + k) _ _ ht).2.1

/-- What one cluster has for a set of hyperparameters, before the scores are combined. -/
noncomputable def sampleHyper (env : GaussEnv) (sigma : ℝ) (r : ℕ) (lo hi : ℝ) (g : GaussProc d) (t : ℕ) : GaussHyper d g.n :=
  gpPrecalculate env sigma g.inputs g.outputs (gpSampleOf (d := d) env clusterSampleSize r sigma lo hi t).1
    (gpSampleOf (d := d) env clusterSampleSize r sigma lo hi t).2.1 (gpSampleOf (d := d) env clusterSampleSize r sigma lo hi t).2.2

/-- The likelihood of what one cluster has observed. -/
noncomputable def GaussProc.lik (sigma : ℝ) (g : GaussProc d) (p : ℝ × ℝ × (Fin d → ℝ)) : ℝ :=
  normalLikelihood (obsCov (sqExp p.2.1 p.2.2) sigma g.inputs) fun i => g.outputs i - p.1

/-- The sum of the likelihoods. -/
noncomputable def likSum (sigma : ℝ) (gs : List (GaussProc d)) (p : ℝ × ℝ × (Fin d → ℝ)) : ℝ := (gs.map fun g => g.lik sigma p).sum

theorem setHyper_eq (henv : env.Ok) {lo hi : ℝ} (h : lo ≤ hi) (r : ℕ) (g : GaussProc d) :
    gpSetHyperparameters env sigma g.inputs g.outputs (gpSamplesOf env clusterSampleSize r d sigma lo hi) =
      (List.range clusterSampleSize).map (sampleHyper env sigma r lo hi g) := by
  unfold gpSetHyperparameters
  have hl : (gpSamplesOf env clusterSampleSize r d sigma lo hi).1.length = clusterSampleSize := (shuffled_grid henv h r 0 clusterSampleSize 0 (by decide)).1
  rw [hl]
  rfl

theorem sampleHyper_score (henv : env.Ok) (hsig : 0 < sigma) {lo hi : ℝ} (h : lo ≤ hi) (r : ℕ) (g : GaussProc d) {t : ℕ} (ht : t < clusterSampleSize) :
    (sampleHyper env sigma r lo hi g t).score = g.lik sigma (gpSampleOf env clusterSampleSize r sigma lo hi t) ∧
      0 < g.lik sigma (gpSampleOf env clusterSampleSize r sigma lo hi t) := by
  obtain ⟨-, -, g3, g4⟩ := gpSampleOf_range (d := d) (sigma := sigma) henv h clusterSampleSize r ht
  exact ⟨precalculate_score henv hsig (hsig.le.trans g3) g4, gpLikelihood_pos hsig (hsig.le.trans g3) g4⟩

theorem zipWith_range {α β γ : Type} (f : α → β → γ) (a : ℕ → α) (b : ℕ → β) (l : List ℕ) :
    List.zipWith f (l.map a) (l.map b) = l.map fun t => f (a t) (b t) := by
  induction l with
  | nil => rfl
  | cons x l ih => simp only [List.map_cons, List.zipWith_cons_cons, ih]

section
attribute [local irreducible] clusterSampleSize

/-- The clusters after evidence was added. -/
theorem tuneClusters_eq (henv : env.Ok) (hsig : 0 < sigma) {lo hi : ℝ} (h : lo ≤ hi) (r : ℕ) (gs : List (GaussProc d)) :
    tuneClusters env sigma r lo hi gs = gs.map fun g => { g with
      hypers := gpNormalize env ((List.range clusterSampleSize).map fun t =>
        { sampleHyper env sigma r lo hi g t with score := likSum sigma gs (gpSampleOf env clusterSampleSize r sigma lo hi t) }) } := by
  unfold tuneClusters
  simp only [List.map_map]
  apply List.map_congr_left
  intro g hg
  simp only [Function.comp]
  congr 2
  rw [setHyper_eq henv h]
  unfold setScores
  rw [zipWith_range]
  apply List.map_congr_left
  intro t ht
  rw [List.mem_range] at ht
  congr 1
  unfold likSum
  congr 1
  apply List.map_congr_left
  intro g' hg'
  simp only [Function.comp]
  rw [setHyper_eq henv h, List.map_map, List.getD_eq_getElem _ _ (by simpa using ht)]
  simp only [List.getElem_map, List.getElem_range, Function.comp]
  exact (sampleHyper_score henv hsig h r g' ht).1

end

theorem likSum_pos (henv : env.Ok) (hsig : 0 < sigma) {lo hi : ℝ} (h : lo ≤ hi) (r : ℕ) {gs : List (GaussProc d)} (hne : gs ≠ []) {t : ℕ} (ht : t < clusterSampleSize) :
    0 < likSum sigma gs (gpSampleOf env clusterSampleSize r sigma lo hi t) := by
  apply sum_map_le_pos
  · intro x hx
    obtain ⟨g, -, rfl⟩ := List.mem_map.1 hx
    exact (sampleHyper_score henv hsig h r g ht).2
  · simpa using hne

/-- The hyperparameters of one cluster: 100 of the 500 samples, with the greatest sums of likelihoods, and in proportion to these. -/
theorem normalized_spec (henv : env.Ok) (hsig : 0 < sigma) {lo hi : ℝ} (h : lo ≤ hi) (r : ℕ) {gs : List (GaussProc d)} (hne : gs ≠ []) (g : GaussProc d) :
    ∃ (idx : List ℕ) (Z : ℝ), 0 < Z ∧ idx.length = gpHyperSize ∧ idx.Nodup ∧ (∀ i ∈ idx, i < clusterSampleSize) ∧
      gpNormalize env ((List.range clusterSampleSize).map fun t =>
        { sampleHyper env sigma r lo hi g t with score := likSum sigma gs (gpSampleOf env clusterSampleSize r sigma lo hi t) }) =
        idx.map (fun t => { sampleHyper env sigma r lo hi g t with score := likSum sigma gs (gpSampleOf env clusterSampleSize r sigma lo hi t) / Z }) ∧
      Z = (idx.map fun t => likSum sigma gs (gpSampleOf env clusterSampleSize r sigma lo hi t)).sum ∧
      ∀ j < clusterSampleSize, j ∉ idx → ∀ i ∈ idx,
        likSum sigma gs (gpSampleOf env clusterSampleSize r sigma lo hi j) ≤ likSum sigma gs (gpSampleOf env clusterSampleSize r sigma lo hi i) := by
  obtain ⟨H, hH⟩ : ∃ H : List (GaussHyper d g.n), H = (List.range clusterSampleSize).map fun t =>
        { sampleHyper env sigma r lo hi g t with score := likSum sigma gs (gpSampleOf env clusterSampleSize r sigma lo hi t) } := ⟨_, rfl⟩
  rw [← hH]
  have hlen : H.length = clusterSampleSize := by rw [hH]; simp
  have hget : ∀ t, t < clusterSampleSize → H[t]? =
      some { sampleHyper env sigma r lo hi g t with score := likSum sigma gs (gpSampleOf env clusterSampleSize r sigma lo hi t) } := by
    intro t ht
    rw [hH, List.getElem?_map, List.getElem?_range ht]
    rfl
  have hgetD : ∀ t, t < clusterSampleSize → (H.map GaussHyper.score).getD t 0 = likSum sigma gs (gpSampleOf env clusterSampleSize r sigma lo hi t) := by
    intro t ht
    rw [List.getD_eq_getElem?_getD, List.getElem?_map, hget t ht]
    rfl
  obtain ⟨idx, Z, z1, z2, z3, z4, z5, z6, z7⟩ := gpNormalize_spec henv (hypers := H) (by rw [hlen]; decide) (by
    intro k hk
    rw [hH] at hk
    obtain ⟨t, ht, rfl⟩ := List.mem_map.1 hk
    rw [List.mem_range] at ht
    exact likSum_pos henv hsig h r hne ht)
  rw [hlen] at z4 z7
  refine ⟨idx, Z, z1, z2, z3, z4, ?_, ?_, ?_⟩
  · rw [z5]
    have gen : ∀ l : List ℕ, (∀ i ∈ l, i < clusterSampleSize) → (l.filterMap fun i => H[i]?.map fun h => { h with score := h.score / Z }) =
        l.map (fun t => { sampleHyper env sigma r lo hi g t with score := likSum sigma gs (gpSampleOf env clusterSampleSize r sigma lo hi t) / Z }) := by
      intro l
      induction l with
      | nil => intro _; rfl
      | cons a l ih =>
        intro hl
        have ha := hl a (by simp)
        rw [List.filterMap_cons_some (b := { sampleHyper env sigma r lo hi g a with score := likSum sigma gs (gpSampleOf env clusterSampleSize r sigma lo hi a) / Z }),
          List.map_cons, ih (fun i hi => hl i (by simp [hi]))]
        rw [hget a ha]
        rfl
    exact gen idx z4
  · rw [z6]
    congr 1
    apply List.map_congr_left
    intro t ht
    exact hgetD t (z4 t ht)
  · intro j hj hjn i hi
    have := z7 j hj hjn i hi
    rwa [hgetD j hj, hgetD i (z4 i hi)] at this

theorem normalized_ok (henv : env.Ok) (hsig : 0 < sigma) {lo hi : ℝ} (h : lo ≤ hi) (r : ℕ) {gs : List (GaussProc d)} (hne : gs ≠ []) (g : GaussProc d) :
    HypersOk env sigma g.inputs g.outputs (gpNormalize env ((List.range clusterSampleSize).map fun t =>
        { sampleHyper env sigma r lo hi g t with score := likSum sigma gs (gpSampleOf env clusterSampleSize r sigma lo hi t) })) := by
  obtain ⟨idx, Z, z1, z2, z3, z4, z5, z6, z7⟩ := normalized_spec henv hsig h r hne g
  rw [z5]
  have hr := fun t (ht : t ∈ idx) => gpSampleOf_range (d := d) (sigma := sigma) henv h clusterSampleSize r (z4 t ht)
  constructor
  · intro k hk
    obtain ⟨t, ht, rfl⟩ := List.mem_map.1 hk
    exact div_pos (likSum_pos henv hsig h r hne (z4 t ht)) z1
  · rw [List.map_map]
    have gen : ∀ l : List ℕ, ∀ f : ℕ → ℝ, (l.map fun t => f t / Z).sum = (l.map f).sum / Z := by
      intro l f
      induction l with
      | nil => simp
      | cons a l ih => rw [List.map_cons, List.sum_cons, ih, List.map_cons, List.sum_cons, add_div]
    have := gen idx fun t => likSum sigma gs (gpSampleOf env clusterSampleSize r sigma lo hi t)
    rw [← z6, div_self z1.ne'] at this
    exact this
  · intro k hk
    obtain ⟨t, ht, rfl⟩ := List.mem_map.1 hk
    exact lt_of_lt_of_le hsig (hr t ht).2.2.1
  · intro k hk
    obtain ⟨t, ht, rfl⟩ := List.mem_map.1 hk
    exact (hr t ht).2.2.2
  · intro k hk
    obtain ⟨t, ht, rfl⟩ := List.mem_map.1 hk
    refine ⟨?_, rfl⟩
    show (gpCovMat sigma g.inputs _ _)⁻¹ = _
    rw [gpCovMat_eq]
    rfl

/-- Every cluster predicts a positive variance. -/
theorem predictVar_pos (hsig : 0 < sigma) {g : GaussProc d} (hok : HypersOk env sigma g.inputs g.outputs g.hypers) (x : Fin d → ℝ) : 0 < g.predictVar x := by
  unfold GaussProc.predictVar
  have hne : g.hypers ≠ [] := by
    intro he
    have := hok.sum
    rw [he] at this
    simp at this
  apply sum_map_le_pos
  · intro v hv
    obtain ⟨h, hh, rfl⟩ := List.mem_map.1 hv
    obtain ⟨a, -, -, -, a4, -⟩ := hyper_predict hsig hok hh x
    exact mul_pos (hok.score h hh) a4
  · simpa using hne

end

end Verif
