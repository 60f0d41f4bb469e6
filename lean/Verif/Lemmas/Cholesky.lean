import Verif.Lemmas.GaussianProcess
import Mathlib.Analysis.Matrix.LDL
/-! Every positive definite matrix has a Cholesky decomposition; hence an environment as assumed exists. -/
namespace Verif
open Spec

theorem cholesky_exists {n : ℕ} {A : Matrix (Fin n) (Fin n) ℝ} (hA : A.PosDef) : ∃ L, IsCholesky A L := by
  obtain ⟨L0, hL0⟩ : ∃ L0 : Matrix (Fin n) (Fin n) ℝ, L0 = LDL.lower hA := ⟨_, rfl⟩
  have hlow : L0.IsLowerTriangular := by
    rw [hL0]
    have hM : Matrix.BlockTriangular (LDL.lowerInv hA) OrderDual.toDual := fun i j hij => LDL.lowerInv_triangular hA hij
    exact Matrix.blockTriangular_inv_of_blockTriangular hM
  have hentry : ∀ i, 0 < LDL.diagEntries hA i := by
    intro i
    have h1 : (LDL.diag hA).PosDef := by
      rw [LDL.diag_eq_lowerInv_conj]
      apply hA.mul_mul_conjTranspose_same
      exact Matrix.vecMul_injective_of_isUnit (isUnit_of_invertible _)
    have h2 := h1.diag_pos (i := i)
    simpa [LDL.diag] using h2
  have hconj : L0 * LDL.diag hA * L0.transpose = A := by
    have := LDL.lower_conj_diag hA
    rw [← hL0] at this
    rwa [Matrix.conjTranspose_eq_transpose_of_trivial] at this
  have hunit : IsUnit L0.det := by
    rw [hL0]
    unfold LDL.lower
    rw [Matrix.isUnit_nonsing_inv_det_iff]
    exact (Matrix.isUnit_iff_isUnit_det _).1 (isUnit_of_invertible _)
  have hdiag : ∀ i, L0 i i ≠ 0 := by
    intro i h0
    have hz : ∏ j, L0 j j = 0 := Finset.prod_eq_zero (f := fun j => L0 j j) (Finset.mem_univ i) h0
    rw [Matrix.det_of_isLowerTriangular L0 hlow, hz] at hunit
    exact not_isUnit_zero hunit
  obtain ⟨s, hs⟩ : ∃ s : Fin n → ℝ, s = fun i => if 0 < L0 i i then Real.sqrt (LDL.diagEntries hA i) else -Real.sqrt (LDL.diagEntries hA i) := ⟨_, rfl⟩
  have hss : ∀ i, s i * s i = LDL.diagEntries hA i := by
    intro i
    rw [hs]
    simp only
    split_ifs
    · exact Real.mul_self_sqrt (hentry i).le
    · rw [neg_mul_neg, Real.mul_self_sqrt (hentry i).le]
  refine ⟨L0 * Matrix.diagonal s, ?_, ?_, ?_⟩
  · rw [Matrix.transpose_mul, Matrix.diagonal_transpose, Matrix.mul_assoc, ← Matrix.mul_assoc (Matrix.diagonal s), Matrix.diagonal_mul_diagonal]
    have h1 : (fun i => s i * s i) = LDL.diagEntries hA := funext hss
    rw [h1, ← Matrix.mul_assoc]
    exact hconj
  · intro i j hij
    rw [Matrix.mul_diagonal, hlow hij, zero_mul]
  · intro i
    rw [Matrix.mul_diagonal, hs]
    have hp := Real.sqrt_pos.2 (hentry i)
    simp only
    split_ifs with h
    · exact mul_pos h hp
    · have : L0 i i < 0 := lt_of_le_of_ne (not_lt.1 h) (hdiag i)
      exact mul_pos_of_neg_of_neg this (by linarith)

open Classical in
/-- An environment as assumed. -/
noncomputable def someGaussEnv : GaussEnv where
  shuffle := fun _ _ l => l
  sort := fun l => (List.range l.length).mergeSort fun i j => decide (l.getD j 0 ≤ l.getD i 0)
  cholesky := fun A => if h : ∃ L, IsCholesky A L then h.choose else 0

theorem someGaussEnv_ok : someGaussEnv.Ok where
  shuffle := fun _ _ l => List.Perm.refl l
  sort := fun l => by
    refine ⟨List.mergeSort_perm _ _, ?_⟩
    have h := List.pairwise_mergeSort (le := fun i j => decide (l.getD j 0 ≤ l.getD i 0)) (fun a b c h1 h2 => by
        simp only [decide_eq_true_eq] at *; exact h2.trans h1) (fun a b => by
        simp only [Bool.or_eq_true, decide_eq_true_eq]; exact le_total _ _) (List.range l.length)
    refine h.imp ?_
    intro a b hab
    simpa using hab
  cholesky := fun A hA => by
    have h : ∃ L, IsCholesky A L := cholesky_exists hA
    unfold someGaussEnv
    simp only
    rw [dif_pos h]
    exact h.choose_spec

end Verif
