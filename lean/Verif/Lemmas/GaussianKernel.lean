import Verif.Model.GaussianProcess
import Verif.Spec.GaussianProcess
import Mathlib.LinearAlgebra.Matrix.PosDef
import Mathlib.LinearAlgebra.Matrix.Block
import Mathlib.Analysis.SpecialFunctions.Exponential
import Mathlib.Algebra.BigOperators.Ring.Finset
import Mathlib.Algebra.BigOperators.Field
/-! The squared exponential covariance is positive semidefinite; consequences for predictions. -/
namespace Verif
open Spec Finset

/-- Powers of an inner product are positive semidefinite. -/
theorem inner_pow_psd {ι : Type} [Fintype ι] {d : ℕ} (u : ι → Fin d → ℝ) (c : ι → ℝ) (k : ℕ) :
    0 ≤ ∑ i, ∑ j, c i * c j * (∑ m, u i m * u j m) ^ k := by
  have hpow : ∀ i j, (∑ m, u i m * u j m) ^ k = ∑ f : Fin k → Fin d, (∏ t, u i (f t)) * ∏ t, u j (f t) := by
    intro i j
    have h1 : (∑ m, u i m * u j m) ^ k = ∏ _t : Fin k, ∑ m, u i m * u j m := by simp
    rw [h1, Finset.prod_univ_sum]
    rw [Fintype.piFinset_univ]
    apply Finset.sum_congr rfl
    intro f _
    rw [← Finset.prod_mul_distrib]
  have : ∑ i, ∑ j, c i * c j * (∑ m, u i m * u j m) ^ k = ∑ f : Fin k → Fin d, (∑ i, c i * ∏ t, u i (f t)) ^ 2 := by
    simp_rw [hpow, Finset.mul_sum]
    calc _ = ∑ i, ∑ f : Fin k → Fin d, ∑ j, c i * c j * ((∏ t, u i (f t)) * ∏ t, u j (f t)) := by
            apply Finset.sum_congr rfl; intro i _; exact Finset.sum_comm
      _ = ∑ f : Fin k → Fin d, ∑ i, ∑ j, c i * c j * ((∏ t, u i (f t)) * ∏ t, u j (f t)) := Finset.sum_comm
      _ = _ := by
            apply Finset.sum_congr rfl
            intro f _
            rw [sq, Finset.sum_mul_sum]
            apply Finset.sum_congr rfl; intro i _
            apply Finset.sum_congr rfl; intro j _
            ring
  rw [this]
  exact Finset.sum_nonneg fun f _ => sq_nonneg _

/-- The exponential of an inner product is positive semidefinite. -/
theorem exp_inner_psd {ι : Type} [Fintype ι] {d : ℕ} (u : ι → Fin d → ℝ) (c : ι → ℝ) :
    0 ≤ ∑ i, ∑ j, c i * c j * Real.exp (∑ m, u i m * u j m) := by
  have h : HasSum (fun k : ℕ => ∑ i, ∑ j, c i * c j * ((∑ m, u i m * u j m) ^ k / (k.factorial : ℝ)))
      (∑ i, ∑ j, c i * c j * Real.exp (∑ m, u i m * u j m)) := by
    apply hasSum_sum
    intro i _
    apply hasSum_sum
    intro j _
    apply HasSum.mul_left
    rw [Real.exp_eq_exp_ℝ]
    exact NormedSpace.expSeries_div_hasSum_exp (∑ m, u i m * u j m)
  refine h.nonneg fun k => ?_
  have : ∑ i, ∑ j, c i * c j * ((∑ m, u i m * u j m) ^ k / (k.factorial : ℝ)) =
      (∑ i, ∑ j, c i * c j * (∑ m, u i m * u j m) ^ k) / (k.factorial : ℝ) := by
    rw [Finset.sum_div]
    apply Finset.sum_congr rfl; intro i _
    rw [Finset.sum_div]
    apply Finset.sum_congr rfl; intro j _
    ring
  rw [this]
  exact div_nonneg (inner_pow_psd u c k) (by positivity)

/-- The squared exponential covariance is positive semidefinite. -/
theorem sqExp_psd {ι : Type} [Fintype ι] {d : ℕ} {theta : ℝ} (ht : 0 ≤ theta) {scale : Fin d → ℝ} (hs : ∀ k, 0 ≤ scale k) (p : ι → Fin d → ℝ) (c : ι → ℝ) :
    0 ≤ ∑ i, ∑ j, c i * c j * sqExp theta scale (p i) (p j) := by
  have hterm : ∀ i j, c i * c j * sqExp theta scale (p i) (p j) =
      theta * ((c i * Real.exp (-∑ k, scale k * p i k ^ 2)) * (c j * Real.exp (-∑ k, scale k * p j k ^ 2)) *
        Real.exp (∑ k, (Real.sqrt (2 * scale k) * p i k) * (Real.sqrt (2 * scale k) * p j k))) := by
    intro i j
    have he : (-∑ k, scale k * (p i k - p j k) ^ 2) = (-∑ k, scale k * p i k ^ 2) + (-∑ k, scale k * p j k ^ 2) +
        ∑ k, (Real.sqrt (2 * scale k) * p i k) * (Real.sqrt (2 * scale k) * p j k) := by
      rw [← Finset.sum_neg_distrib, ← Finset.sum_neg_distrib, ← Finset.sum_neg_distrib, ← Finset.sum_add_distrib, ← Finset.sum_add_distrib]
      apply Finset.sum_congr rfl
      intro k _
      have h2 : Real.sqrt (2 * scale k) * Real.sqrt (2 * scale k) = 2 * scale k := Real.mul_self_sqrt (by have := hs k; positivity)
      have : (Real.sqrt (2 * scale k) * p i k) * (Real.sqrt (2 * scale k) * p j k) = (2 * scale k) * (p i k * p j k) := by
        calc _ = (Real.sqrt (2 * scale k) * Real.sqrt (2 * scale k)) * (p i k * p j k) := by ring
          _ = _ := by rw [h2]
      rw [this]; ring
    unfold sqExp
    rw [he, Real.exp_add, Real.exp_add]
    ring
  simp_rw [hterm, ← Finset.mul_sum]
  exact mul_nonneg ht (exp_inner_psd (fun i k => Real.sqrt (2 * scale k) * p i k) fun i => c i * Real.exp (-∑ k, scale k * p i k ^ 2))

theorem gpKernel_eq {d : ℕ} (x y : Fin d → ℝ) (theta : ℝ) (s : Fin d → ℝ) : gpKernel x y theta s = sqExp theta s x y := by
  unfold gpKernel sqExp
  congr 3
  apply Finset.sum_congr rfl
  intro k _
  ring

theorem sqExp_comm {d : ℕ} (theta : ℝ) (s x y : Fin d → ℝ) : sqExp theta s x y = sqExp theta s y x := by
  unfold sqExp
  congr 3
  apply Finset.sum_congr rfl
  intro k _
  ring

theorem sqExp_self {d : ℕ} (theta : ℝ) (s x : Fin d → ℝ) : sqExp theta s x x = theta := by
  unfold sqExp
  simp

theorem gpCovMat_eq {d n : ℕ} (sigma : ℝ) (inputs : Fin n → Fin d → ℝ) (theta : ℝ) (s : Fin d → ℝ) :
    gpCovMat sigma inputs theta s = obsCov (sqExp theta s) sigma inputs := by
  funext i j
  unfold gpCovMat obsCov
  split_ifs with h1 h2
  · subst h1; rw [gpKernel_eq]
  · rw [gpKernel_eq]; simp
  · rw [gpKernel_eq, sqExp_comm]; simp

section
variable {d n : ℕ} {sigma theta : ℝ} {scale : Fin d → ℝ} {inputs : Fin n → Fin d → ℝ}

/-- The expected squared error is the square of a norm. -/
theorem linearError_lower (ht : 0 ≤ theta) (hs : ∀ k, 0 ≤ scale k) (x : Fin d → ℝ) (a : Fin n → ℝ) :
    sigma * ∑ i, a i ^ 2 ≤ linearError (sqExp theta scale) sigma inputs x a := by
  have h := sqExp_psd (ι := Option (Fin n)) ht hs (fun o => o.elim x inputs) (fun o => o.elim 1 fun i => -a i)
  simp only [Fintype.sum_option, Option.elim_none, Option.elim_some] at h
  unfold linearError
  have h1 : ∑ i, ∑ j, a i * a j * (sqExp theta scale (inputs i) (inputs j) + if i = j then sigma else 0) =
      ∑ i, ∑ j, a i * a j * sqExp theta scale (inputs i) (inputs j) + sigma * ∑ i, a i ^ 2 := by
    rw [Finset.mul_sum, ← Finset.sum_add_distrib]
    apply Finset.sum_congr rfl
    intro i _
    have : sigma * a i ^ 2 = ∑ j, a i * a j * (if i = j then sigma else 0) := by
      simp
      ring
    rw [this, ← Finset.sum_add_distrib]
    apply Finset.sum_congr rfl
    intro j _
    ring
  rw [h1]
  have h2 : ∑ i, (-a i * 1 * sqExp theta scale (inputs i) x + ∑ j, -a i * -a j * sqExp theta scale (inputs i) (inputs j)) =
      -(∑ i, a i * sqExp theta scale x (inputs i)) + ∑ i, ∑ j, a i * a j * sqExp theta scale (inputs i) (inputs j) := by
    rw [Finset.sum_add_distrib, ← Finset.sum_neg_distrib]
    congr 1
    · apply Finset.sum_congr rfl
      intro i _
      rw [sqExp_comm theta scale (inputs i) x]
      ring
    · apply Finset.sum_congr rfl; intro i _
      apply Finset.sum_congr rfl; intro j _
      ring
  have h3 : ∑ i, 1 * -a i * sqExp theta scale x (inputs i) = -(∑ i, a i * sqExp theta scale x (inputs i)) := by
    rw [← Finset.sum_neg_distrib]
    apply Finset.sum_congr rfl
    intro i _
    ring
  rw [h2, h3] at h
  linarith

/-- The covariance matrix of the observations is positive definite. -/
theorem obsCov_form (ht : 0 ≤ theta) (hs : ∀ k, 0 ≤ scale k) (a : Fin n → ℝ) :
    sigma * ∑ i, a i ^ 2 ≤ ∑ i, ∑ j, a i * a j * obsCov (sqExp theta scale) sigma inputs i j := by
  have h := sqExp_psd ht hs inputs a
  unfold obsCov
  have h1 : ∑ i, ∑ j, a i * a j * (sqExp theta scale (inputs i) (inputs j) + if i = j then sigma else 0) =
      ∑ i, ∑ j, a i * a j * sqExp theta scale (inputs i) (inputs j) + sigma * ∑ i, a i ^ 2 := by
    rw [Finset.mul_sum, ← Finset.sum_add_distrib]
    apply Finset.sum_congr rfl
    intro i _
    have : sigma * a i ^ 2 = ∑ j, a i * a j * (if i = j then sigma else 0) := by
      simp
      ring
    rw [this, ← Finset.sum_add_distrib]
    apply Finset.sum_congr rfl
    intro j _
    ring
  rw [h1]
  linarith

theorem sum_sq_pos {a : Fin n → ℝ} (h : a ≠ 0) : 0 < ∑ i, a i ^ 2 := by
  obtain ⟨i, hi⟩ := Function.ne_iff.1 h
  refine Finset.sum_pos' (fun i _ => sq_nonneg _) ⟨i, Finset.mem_univ _, ?_⟩
  have : a i ≠ 0 := hi
  positivity

theorem obsCov_posDef (hsig : 0 < sigma) (ht : 0 ≤ theta) (hs : ∀ k, 0 ≤ scale k) :
    (obsCov (sqExp theta scale) sigma inputs).PosDef := by
  refine Matrix.PosDef.of_dotProduct_mulVec_pos ?_ ?_
  · ext i j
    simp only [Matrix.conjTranspose_apply, obsCov, star_trivial]
    rw [sqExp_comm theta scale (inputs j)]
    simp only [eq_comm]
  · intro a ha
    have h := obsCov_form (sigma := sigma) (inputs := inputs) ht hs a
    have h2 : star a ⬝ᵥ (obsCov (sqExp theta scale) sigma inputs).mulVec a = ∑ i, ∑ j, a i * a j * obsCov (sqExp theta scale) sigma inputs i j := by
      simp only [dotProduct, Matrix.mulVec, Pi.star_apply, star_trivial, Finset.mul_sum]
      apply Finset.sum_congr rfl; intro i _
      apply Finset.sum_congr rfl; intro j _
      ring
    rw [h2]
    have := sum_sq_pos ha
    nlinarith

end

end Verif
