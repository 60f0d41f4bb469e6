import Verif.Lemmas.GaussianKernel
import Mathlib.Data.List.GetD
import Mathlib.Analysis.Matrix.PosDef
/-! Predictions of a Gaussian process. -/
namespace Verif
open Spec Finset

section
variable {n : ℕ}

theorem form_eq (A : Matrix (Fin n) (Fin n) ℝ) (a b : Fin n → ℝ) : ∑ i, ∑ j, a i * b j * A i j = a ⬝ᵥ A.mulVec b := by
  simp only [dotProduct, Matrix.mulVec, Finset.mul_sum]
  apply Finset.sum_congr rfl; intro i _
  apply Finset.sum_congr rfl; intro j _
  ring

theorem dot_mulVec_symm {A : Matrix (Fin n) (Fin n) ℝ} (hA : A.transpose = A) (a b : Fin n → ℝ) : a ⬝ᵥ A.mulVec b = b ⬝ᵥ A.mulVec a := by
  rw [Matrix.dotProduct_mulVec, dotProduct_comm, ← Matrix.mulVec_transpose, hA]

variable {d : ℕ} {sigma theta : ℝ} {scale : Fin d → ℝ} {inputs : Fin n → Fin d → ℝ}

theorem obsCov_symm : (obsCov (sqExp theta scale) sigma inputs).transpose = obsCov (sqExp theta scale) sigma inputs := by
  ext i j
  simp only [Matrix.transpose_apply, obsCov]
  rw [sqExp_comm theta scale (inputs j)]
  simp only [eq_comm]

theorem linearError_eq (x : Fin d → ℝ) (a : Fin n → ℝ) : linearError (sqExp theta scale) sigma inputs x a =
    theta - 2 * (a ⬝ᵥ fun i => sqExp theta scale x (inputs i)) + a ⬝ᵥ (obsCov (sqExp theta scale) sigma inputs).mulVec a := by
  unfold linearError
  rw [sqExp_self]
  congr 1
  rw [← form_eq]
  rfl

/-- The best weights. -/
theorem best_weights (hsig : 0 < sigma) (ht : 0 < theta) (hs : ∀ k, 0 ≤ scale k) (x : Fin d → ℝ) :
    let A := obsCov (sqExp theta scale) sigma inputs
    let k : Fin n → ℝ := fun i => sqExp theta scale x (inputs i)
    BestWeights (sqExp theta scale) sigma inputs x (A⁻¹.mulVec k) ∧
      linearError (sqExp theta scale) sigma inputs x (A⁻¹.mulVec k) = theta - k ⬝ᵥ A⁻¹.mulVec k ∧
      0 < theta - k ⬝ᵥ A⁻¹.mulVec k ∧ theta - k ⬝ᵥ A⁻¹.mulVec k ≤ theta ∧
      ∀ r : Fin n → ℝ, k ⬝ᵥ A⁻¹.mulVec r = (A⁻¹.mulVec k) ⬝ᵥ r := by
  intro A k
  have hpd : A.PosDef := obsCov_posDef hsig ht.le hs
  have hsymm : A.transpose = A := obsCov_symm
  have hdet : IsUnit A.det := (Matrix.isUnit_iff_isUnit_det _).1 hpd.isUnit
  have hinv : A * A⁻¹ = 1 := Matrix.mul_nonsing_inv A hdet
  have hisymm : A⁻¹.transpose = A⁻¹ := by rw [Matrix.transpose_nonsing_inv, hsymm]
  obtain ⟨a, ha⟩ : ∃ a, a = A⁻¹.mulVec k := ⟨_, rfl⟩
  have hAa : A.mulVec a = k := by rw [ha, Matrix.mulVec_mulVec, hinv, Matrix.one_mulVec]
  have hval : linearError (sqExp theta scale) sigma inputs x a = theta - k ⬝ᵥ a := by
    rw [linearError_eq]
    have h1 : (obsCov (sqExp theta scale) sigma inputs).mulVec a = k := hAa
    rw [h1]
    have h2 : (a ⬝ᵥ fun i => sqExp theta scale x (inputs i)) = k ⬝ᵥ a := dotProduct_comm _ _
    rw [h2]
    have h3 : a ⬝ᵥ k = k ⬝ᵥ a := dotProduct_comm _ _
    linarith
  have hdiff : ∀ b, linearError (sqExp theta scale) sigma inputs x b = linearError (sqExp theta scale) sigma inputs x a + (b - a) ⬝ᵥ A.mulVec (b - a) := by
    intro b
    rw [hval, linearError_eq, Matrix.mulVec_sub, dotProduct_sub, sub_dotProduct, sub_dotProduct, dot_mulVec_symm hsymm a b, hAa]
    have h2 : (b ⬝ᵥ fun i => sqExp theta scale x (inputs i)) = b ⬝ᵥ k := rfl
    rw [h2, dotProduct_comm k a]
    show theta - 2 * b ⬝ᵥ k + b ⬝ᵥ A.mulVec b = theta - a ⬝ᵥ k + (b ⬝ᵥ A.mulVec b - b ⬝ᵥ k - (b ⬝ᵥ k - a ⬝ᵥ k))
    ring
  have hform : ∀ b, sigma * ∑ i, b i ^ 2 ≤ b ⬝ᵥ A.mulVec b := by
    intro b
    rw [← form_eq]
    exact obsCov_form ht.le hs b
  rw [← ha]
  refine ⟨?_, hval, ?_, ?_, ?_⟩
  · intro b hb
    rw [hdiff b]
    have h1 := hform (b - a)
    have h2 := sum_sq_pos (sub_ne_zero.2 hb)
    have h3 := mul_pos hsig h2
    linarith
  · rw [← hval]
    by_cases h0 : a = 0
    · rw [hval, h0]
      simpa using ht
    · have h1 := linearError_lower (sigma := sigma) (inputs := inputs) ht.le hs x a
      have h2 := mul_pos hsig (sum_sq_pos h0)
      linarith
  · have h1 := hform a
    rw [hAa, dotProduct_comm] at h1
    have h2 : 0 ≤ sigma * ∑ i, a i ^ 2 := mul_nonneg hsig.le (Finset.sum_nonneg fun i _ => sq_nonneg _)
    linarith
  · intro r
    rw [dot_mulVec_symm hisymm, ha, dotProduct_comm]

/-- The product of the diagonal of the Cholesky decomposition. -/
theorem cholesky_prod {A L : Matrix (Fin n) (Fin n) ℝ} (h : IsCholesky A L) : ∏ i, L i i = Real.sqrt A.det := by
  obtain ⟨h1, h2, h3⟩ := h
  have hdet : L.det = ∏ i, L i i := Matrix.det_of_isLowerTriangular L (fun i j hij => h2 i j hij)
  have hpos : 0 < ∏ i, L i i := Finset.prod_pos fun i _ => h3 i
  rw [← h1, Matrix.det_mul, Matrix.det_transpose, hdet, Real.sqrt_mul_self hpos.le]

end

/-- What is assumed about shuffling, sorting and the Cholesky decomposition. -/
structure GaussEnv.Ok (env : GaussEnv) : Prop where
  shuffle : ∀ r i l, (env.shuffle r i l).Perm l
  sort : ∀ l, (env.sort l).Perm (List.range l.length) ∧ (env.sort l).Pairwise fun i j => l.getD j 0 ≤ l.getD i 0
  cholesky : ∀ {n : ℕ} (A : Matrix (Fin n) (Fin n) ℝ), A.PosDef → IsCholesky A (env.cholesky A)

theorem realGrid_spec {lo hi : ℝ} (h : lo ≤ hi) (n : ℕ) : (realGrid lo hi n).length = n ∧ ∀ x ∈ realGrid lo hi n, lo ≤ x ∧ x ≤ hi := by
  unfold realGrid
  split_ifs with h0 h1
  · subst h0; simp
  · subst h1
    refine ⟨rfl, fun x hx => ?_⟩
    rw [List.mem_singleton.1 hx]
    constructor <;> linarith
  · refine ⟨by simp; omega, fun x hx => ?_⟩
    rcases List.mem_append.1 hx with hx | hx
    · obtain ⟨i, hi', rfl⟩ := List.mem_map.1 hx
      rw [List.mem_range] at hi'
      have hn : (0 : ℝ) < ((n - 1 : ℕ) : ℝ) := by exact_mod_cast (by omega : 0 < n - 1)
      have hin : (i : ℝ) ≤ ((n - 1 : ℕ) : ℝ) := by exact_mod_cast hi'.le
      have hd : 0 ≤ (hi - lo) / ((n - 1 : ℕ) : ℝ) := div_nonneg (by linarith) hn.le
      have h2 : (hi - lo) / ((n - 1 : ℕ) : ℝ) * (i : ℝ) ≤ hi - lo := by
        rw [div_mul_eq_mul_div, div_le_iff₀ hn]
        exact mul_le_mul_of_nonneg_left hin (by linarith)
      have h3 : 0 ≤ (hi - lo) / ((n - 1 : ℕ) : ℝ) * (i : ℝ) := mul_nonneg hd (Nat.cast_nonneg _)
      constructor <;> linarith
    · rw [List.mem_singleton.1 hx]
      exact ⟨h, le_refl _⟩

section
variable {d : ℕ} {env : GaussEnv} {sigma : ℝ}

theorem shuffled_grid (henv : env.Ok) {lo hi : ℝ} (h : lo ≤ hi) (r i n t : ℕ) (ht : t < n) :
    (env.shuffle r i (realGrid lo hi n)).length = n ∧ lo ≤ (env.shuffle r i (realGrid lo hi n)).getD t 0 ∧
      (env.shuffle r i (realGrid lo hi n)).getD t 0 ≤ hi := by
  have hp := henv.shuffle r i (realGrid lo hi n)
  obtain ⟨g1, g2⟩ := realGrid_spec h n
  have hl : (env.shuffle r i (realGrid lo hi n)).length = n := by rw [hp.length_eq, g1]
  refine ⟨hl, ?_⟩
  have : (env.shuffle r i (realGrid lo hi n)).getD t 0 ∈ realGrid lo hi n := by
    rw [← hp.mem_iff, List.getD_eq_getElem _ _ (by omega)]
    exact List.getElem_mem _
  exact g2 _ this

/-- The likelihood of the observations. -/
noncomputable def gpLikelihood {n : ℕ} (sigma : ℝ) (inputs : Fin n → Fin d → ℝ) (outputs : Fin n → ℝ) (mean theta : ℝ) (scale : Fin d → ℝ) : ℝ :=
  normalLikelihood (obsCov (sqExp theta scale) sigma inputs) fun i => outputs i - mean

theorem gpLikelihood_pos {n : ℕ} (hsig : 0 < sigma) {inputs : Fin n → Fin d → ℝ} {outputs : Fin n → ℝ} {mean theta : ℝ} (ht : 0 ≤ theta) {scale : Fin d → ℝ}
    (hs : ∀ k, 0 ≤ scale k) : 0 < gpLikelihood sigma inputs outputs mean theta scale := by
  unfold gpLikelihood normalLikelihood
  have := (obsCov_posDef (inputs := inputs) hsig ht hs).det_pos
  positivity

theorem precalculate_score (henv : env.Ok) {n : ℕ} (hsig : 0 < sigma) {inputs : Fin n → Fin d → ℝ} {outputs : Fin n → ℝ} {mean theta : ℝ} (ht : 0 ≤ theta)
    {scale : Fin d → ℝ} (hs : ∀ k, 0 ≤ scale k) :
    (gpPrecalculate env sigma inputs outputs mean theta scale).score = gpLikelihood sigma inputs outputs mean theta scale := by
  unfold gpPrecalculate gpLikelihood normalLikelihood
  simp only
  rw [gpCovMat_eq, cholesky_prod (henv.cholesky _ (obsCov_posDef hsig ht hs))]

/-- The 10000 sets of hyperparameters. -/
noncomputable def gpSample (env : GaussEnv) (r : ℕ) (sigma lo hi : ℝ) (t : ℕ) : ℝ × ℝ × (Fin d → ℝ) :=
  ((gpSamples env r d sigma lo hi).1.getD t 0, (gpSamples env r d sigma lo hi).2.1.getD t 0, fun k => ((gpSamples env r d sigma lo hi).2.2 k).getD t 0)

theorem gpSample_range (henv : env.Ok) {lo hi : ℝ} (h : lo ≤ hi) (r : ℕ) {t : ℕ} (ht : t < gpSampleSize) :
    lo ≤ (gpSample (d := d) env r sigma lo hi t).1 ∧ (gpSample (d := d) env r sigma lo hi t).1 ≤ hi ∧
      sigma ≤ (gpSample (d := d) env r sigma lo hi t).2.1 ∧ ∀ k, 0 ≤ (gpSample (d := d) env r sigma lo hi t).2.2 k := by
  obtain ⟨-, a1, a2⟩ := shuffled_grid henv h r 0 _ _ ht
  obtain ⟨-, b1, -⟩ := shuffled_grid henv (lo := sigma) (hi := gpThetaMax sigma lo hi) (le_max_right _ _) r 1 _ _ ht
  refine ⟨a1, a2, b1, fun k => ?_⟩
  exact (shuffled_grid henv (lo := 0) (hi := 5 + max 0 (Real.log (gpThetaMax sigma lo hi))) (by have := le_max_left 0 (Real.log (gpThetaMax sigma lo hi)); linarith)
    r (2 + k) _ _ ht).2.1

theorem gpSetHyperparameters_eq (henv : env.Ok) {n : ℕ} {inputs : Fin n → Fin d → ℝ} {outputs : Fin n → ℝ} {lo hi : ℝ} (h : lo ≤ hi) (r : ℕ) :
    gpSetHyperparameters env sigma inputs outputs (gpSamples env r d sigma lo hi) = (List.range gpSampleSize).map fun t =>
      gpPrecalculate env sigma inputs outputs (gpSample (d := d) env r sigma lo hi t).1 (gpSample (d := d) env r sigma lo hi t).2.1
        (gpSample (d := d) env r sigma lo hi t).2.2 := by
  unfold gpSetHyperparameters
  have hl : (gpSamples env r d sigma lo hi).1.length = gpSampleSize := (shuffled_grid henv h r 0 gpSampleSize 0 (by decide)).1
  rw [hl]
  rfl

theorem sum_map_le_pos {l : List ℝ} (h : ∀ x ∈ l, 0 < x) (hne : l ≠ []) : 0 < l.sum := by
  cases l with
  | nil => exact absurd rfl hne
  | cons a l =>
    rw [List.sum_cons]
    have h1 := h a (by simp)
    have h2 : 0 ≤ l.sum := List.sum_nonneg fun x hx => (h x (by simp [hx])).le
    linarith

/-- What `normalizeHyperparameters` keeps. -/
theorem gpNormalize_spec (henv : env.Ok) {n : ℕ} {hypers : List (GaussHyper d n)} (hlen : gpHyperSize ≤ hypers.length) (hpos : ∀ h ∈ hypers, 0 < h.score) :
    ∃ (idx : List ℕ) (Z : ℝ), 0 < Z ∧ idx.length = gpHyperSize ∧ idx.Nodup ∧ (∀ i ∈ idx, i < hypers.length) ∧
      gpNormalize env hypers = idx.filterMap (fun i => hypers[i]?.map fun h => { h with score := h.score / Z }) ∧
      Z = (idx.map fun i => (hypers.map GaussHyper.score).getD i 0).sum ∧
      ∀ j < hypers.length, j ∉ idx → ∀ i ∈ idx, (hypers.map GaussHyper.score).getD j 0 ≤ (hypers.map GaussHyper.score).getD i 0 := by
  obtain ⟨s1, s2⟩ := henv.sort (hypers.map GaussHyper.score)
  obtain ⟨S, hS⟩ : ∃ S, S = env.sort (hypers.map GaussHyper.score) := ⟨_, rfl⟩
  rw [← hS] at s1 s2
  rw [List.length_map] at s1
  have hSl : S.length = hypers.length := by rw [s1.length_eq, List.length_range]
  have hSlt : ∀ i ∈ S, i < hypers.length := fun i hi => by simpa using s1.mem_iff.1 hi
  have hfm : ∀ l : List ℕ, (∀ i ∈ l, i < hypers.length) → ∀ m, (l.filterMap fun i => hypers[i]?).take m = (l.take m).filterMap fun i => hypers[i]? := by
    intro l
    induction l with
    | nil => intro _ m; simp
    | cons a l ih =>
      intro hl m
      have ha : hypers[a]? = some (hypers[a]'(hl a (by simp))) := List.getElem?_eq_getElem _
      cases m with
      | zero => simp
      | succ m =>
        rw [List.filterMap_cons_some ha, List.take_succ_cons, List.take_succ_cons, List.filterMap_cons_some ha, ih (fun i hi => hl i (by simp [hi]))]
  have hscore : ∀ l : List ℕ, (∀ i ∈ l, i < hypers.length) →
      (l.filterMap fun i => hypers[i]?).map GaussHyper.score = l.map fun i => (hypers.map GaussHyper.score).getD i 0 := by
    intro l
    induction l with
    | nil => intro _; rfl
    | cons a l ih =>
      intro hl
      have ha : hypers[a]? = some (hypers[a]'(hl a (by simp))) := List.getElem?_eq_getElem _
      rw [List.filterMap_cons_some ha, List.map_cons, List.map_cons, ih (fun i hi => hl i (by simp [hi]))]
      congr 1
      rw [List.getD_eq_getElem _ _ (by simpa using hl a (by simp))]
      simp
  have hidx : ∀ i ∈ S.take gpHyperSize, i < hypers.length := fun i hi => hSlt i (List.mem_of_mem_take hi)
  have hidxl : (S.take gpHyperSize).length = gpHyperSize := by rw [List.length_take, hSl]; omega
  obtain ⟨Z, hZ⟩ : ∃ Z, Z = ((S.take gpHyperSize).map fun i => (hypers.map GaussHyper.score).getD i 0).sum := ⟨_, rfl⟩
  have hZpos : 0 < Z := by
    rw [hZ]
    apply sum_map_le_pos
    · intro x hx
      obtain ⟨i, hi, rfl⟩ := List.mem_map.1 hx
      have := hidx i hi
      rw [List.getD_eq_getElem _ _ (by simpa using this)]
      simp only [List.getElem_map]
      exact hpos _ (List.getElem_mem _)
    · intro he
      have := congrArg List.length he
      rw [List.length_map, hidxl] at this
      simp [gpHyperSize] at this
  refine ⟨S.take gpHyperSize, Z, hZpos, hidxl, ?_, hidx, ?_, hZ, ?_⟩
  · exact (s1.nodup_iff.2 List.nodup_range).sublist (List.take_sublist _ _)
  · unfold gpNormalize
    simp only [← hS]
    rw [hfm S hSlt, hscore _ hidx, ← hZ, if_pos hZpos]
    rw [List.map_filterMap]
  · intro j hj hjn i hi
    have hjS : j ∈ S := s1.mem_iff.2 (by simpa using hj)
    rw [← List.take_append_drop gpHyperSize S] at hjS s2
    rcases List.mem_append.1 hjS with h | h
    · exact absurd h hjn
    · exact (List.pairwise_append.1 s2).2.2 i hi j h

end

end Verif
