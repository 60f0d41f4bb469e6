import Verif.Lemmas.Acquisition
import Verif.Props.C115
/-!
# C117 — acquisition functions

`Predicted mean var`: the normal distribution with this mean and variance, of Mathlib.
-/
namespace Verif
open Spec MeasureTheory ProbabilityTheory Set

/-- The normal distribution. -/
noncomputable abbrev Predicted (mean var : ℝ) : Measure ℝ := gaussianReal mean var.toNNReal

theorem predicted_eq {mean var : ℝ} (hv : 0 < var) : Predicted mean var = gaussianReal mean (.mk (Real.sqrt var ^ 2) (sq_nonneg _)) := by
  unfold Predicted
  congr 1
  apply NNReal.eq
  show max var 0 = Real.sqrt var ^ 2
  rw [Real.sq_sqrt hv.le, max_eq_left hv.le]

/-- The probability of improvement is the probability that the predicted value exceeds the greatest value so far. -/
theorem C117_probability {mean var : ℝ} (hv : 0 < var) (currentMax : ℝ) :
    calcAcquisition .probabilityOfImprovement mean var currentMax = (Predicted mean var (Ioi currentMax)).toReal := by
  rw [predicted_eq hv, gaussian_tail (Real.sqrt_pos.2 hv)]
  rfl

/-- The expected improvement is the expected value by which the predicted value exceeds the greatest value so far. -/
theorem C117_expected {mean var : ℝ} (hv : 0 < var) (currentMax : ℝ) :
    calcAcquisition .expectedImprovement mean var currentMax = ∫ y, max 0 (y - currentMax) ∂Predicted mean var := by
  rw [predicted_eq hv, gaussian_improvement (Real.sqrt_pos.2 hv)]
  rfl

/-- The upper confidence bound is exceeded with the same probability by all predictions. -/
theorem C117_confidence {mean var : ℝ} (hv : 0 < var) (currentMax : ℝ) :
    (Predicted mean var (Ioi (calcAcquisition .upperConfidenceBound mean var currentMax))).toReal = (Predicted 0 1 (Ioi 2)).toReal := by
  have hs := Real.sqrt_pos.2 hv
  rw [predicted_eq hv, predicted_eq one_pos, gaussian_tail hs, gaussian_tail (by simp)]
  congr 1
  unfold calcAcquisition
  simp only
  rw [Real.sqrt_one]
  field_simp
  ring

/-- `mean` and `variance` do not look at the greatest value; the density is that of the predicted value. -/
theorem C117_density {mean var : ℝ} (hv : 0 < var) (y : ℝ) : outputPDF mean var y = gaussianPDFReal mean var.toNNReal y := by
  have hs := Real.sqrt_pos.2 hv
  unfold outputPDF normalPDF gaussianPDFReal
  simp only
  have e : ((var.toNNReal : NNReal) : ℝ) = var := Real.coe_toNNReal _ hv.le
  rw [e, Real.sqrt_mul (by positivity) var, mul_inv, one_div]
  have e2 : -((mean - y) / Real.sqrt var) * ((mean - y) / Real.sqrt var) / 2 = -(y - mean) ^ 2 / (2 * var) := by
    have : Real.sqrt var * Real.sqrt var = var := Real.mul_self_sqrt hv.le
    have h2 : -((mean - y) / Real.sqrt var) * ((mean - y) / Real.sqrt var) / 2 = -((mean - y) * (mean - y)) / (Real.sqrt var * Real.sqrt var) / 2 := by
      field_simp
    rw [h2, this]
    field_simp
    ring
  rw [e2]
  ring

/-- With the same uncertainty, all functions but `variance` prefer the greater mean. -/
theorem C117_prefers {mean mean' var : ℝ} (hv : 0 < var) (h : mean < mean') (currentMax : ℝ) (af : AcqFunction) (haf : af ≠ .variance) :
    calcAcquisition af mean var currentMax < calcAcquisition af mean' var currentMax := by
  have hs := Real.sqrt_pos.2 hv
  cases af with
  | upperConfidenceBound => show mean + _ < mean' + _; linarith
  | mean => exact h
  | variance => exact absurd rfl haf
  | probabilityOfImprovement =>
    exact normalCDF_strict (div_lt_div_of_pos_right (by linarith) hs)
  | expectedImprovement =>
    have := improvement_strict hs h currentMax
    rwa [improvement_integral hs, improvement_integral hs] at this

/-- Improvement is always possible, and at least what the mean promises. -/
theorem C117_positive {mean var : ℝ} (hv : 0 < var) (currentMax : ℝ) :
    0 < calcAcquisition .probabilityOfImprovement mean var currentMax ∧ calcAcquisition .probabilityOfImprovement mean var currentMax < 1 ∧
      0 < calcAcquisition .expectedImprovement mean var currentMax ∧ mean - currentMax < calcAcquisition .expectedImprovement mean var currentMax := by
  have hs := Real.sqrt_pos.2 hv
  have hone : ∀ x, normalCDF x + normalCDF (-x) = 1 := by
    intro x
    rw [normalCDF_measure, normalCDF_measure, neg_neg]
    have hsym : gaussianReal 0 1 (Ioi x) = gaussianReal 0 1 (Iio (-x)) := by
      have h1 := gaussianReal_map_const_mul (μ := 0) (v := 1) (-1)
      have e : (NNReal.mk ((-1 : ℝ) ^ 2) (sq_nonneg _)) * 1 = 1 := by apply NNReal.eq; simp
      rw [mul_zero, e] at h1
      conv_lhs => rw [← h1]
      rw [Measure.map_apply (by fun_prop) measurableSet_Ioi]
      congr 1
      ext z
      simp only [mem_preimage, mem_Ioi, mem_Iio]
      constructor <;> intro h <;> linarith
    rw [hsym, ← ENNReal.toReal_add (measure_ne_top _ _) (measure_ne_top _ _)]
    have hiic : gaussianReal 0 1 (Iio (-x)) = gaussianReal 0 1 (Iic (-x)) := by
      haveI := nullSingletonClass_gaussianReal (μ := 0) (v := 1) one_ne_zero
      exact measure_congr Iio_ae_eq_Iic
    rw [hiic, ← measure_union (by rw [Set.disjoint_left]; intro z hz hz'; exact absurd (mem_Iic.1 hz') (not_le.2 (mem_Ioi.1 hz))) measurableSet_Iic]
    have : Ioi (-x) ∪ Iic (-x) = univ := by rw [union_comm]; exact Iic_union_Ioi
    rw [this]
    simp
  have h1 := normalCDF_pos ((mean - currentMax) / Real.sqrt var)
  have h2 := normalCDF_pos (-((mean - currentMax) / Real.sqrt var))
  have h3 := hone ((mean - currentMax) / Real.sqrt var)
  refine ⟨h1, by show normalCDF _ < 1; linarith, ?_, ?_⟩
  · rw [C117_expected hv, predicted_eq hv, gaussian_improvement hs, ← improvement_integral hs]
    have h0 : 0 ≤ ∫ z, normalPDF z * max 0 (mean - 1 + Real.sqrt var * z - currentMax) :=
      integral_nonneg fun z => mul_nonneg (normalPDF_pos z).le (le_max_left _ _)
    exact lt_of_le_of_lt h0 (improvement_strict hs (by linarith) currentMax)
  · have hneg : 0 < ∫ z, normalPDF z * max 0 (-(mean - currentMax) + Real.sqrt var * z - 0) := by
      have h0 : 0 ≤ ∫ z, normalPDF z * max 0 (-(mean - currentMax) - 1 + Real.sqrt var * z - 0) :=
        integral_nonneg fun z => mul_nonneg (normalPDF_pos z).le (le_max_left _ _)
      exact lt_of_le_of_lt h0 (improvement_strict hs (by linarith) 0)
    rw [improvement_integral hs] at hneg
    have e1 : (-(mean - currentMax) - 0) / Real.sqrt var = -((mean - currentMax) / Real.sqrt var) := by rw [sub_zero, neg_div]
    rw [e1, normalPDF_neg] at hneg
    show _ < (mean - currentMax) * normalCDF ((mean - currentMax) / Real.sqrt var) + Real.sqrt var * normalPDF ((mean - currentMax) / Real.sqrt var)
    have e2 : normalCDF (-((mean - currentMax) / Real.sqrt var)) = 1 - normalCDF ((mean - currentMax) / Real.sqrt var) := by linarith
    rw [e2] at hneg
    nlinarith

/-- Applied to the Gaussian process of C115: for every history with observations, the value is about the first greatest observation `o`. -/
theorem C117_process {d : ℕ} {env : GaussEnv} (henv : env.Ok) {sigma : ℝ} (hsig : 0 < sigma) (as : List (GaussAction d)) (hne : observed as ≠ []) (x : Fin d → ℝ) :
    ∃ o ∈ observed as, (∀ q ∈ observed as, q.2 ≤ o.2) ∧
      let g := GaussProc.run env sigma as
      g.calcAcquisition .probabilityOfImprovement x = (Predicted (g.predictMean x) (g.predictVar x) (Ioi o.2)).toReal ∧
      g.calcAcquisition .expectedImprovement x = ∫ y, max 0 (y - o.2) ∂Predicted (g.predictMean x) (g.predictVar x) := by
  obtain ⟨-, h2⟩ := C115_evidence env sigma as
  obtain ⟨-, pre, o, post, e1, e2, -, e4, e5⟩ := h2 hne
  obtain ⟨-, -, -, hv, -⟩ := C115_prediction henv hsig as x
  refine ⟨o, by rw [e1]; simp, ?_, ?_, ?_⟩
  · intro q hq
    rw [e1] at hq
    rcases List.mem_append.1 hq with hq | hq
    · exact (e4 q hq).le
    · rcases List.mem_cons.1 hq with rfl | hq
      · exact le_refl _
      · exact e5 q hq
  · unfold GaussProc.calcAcquisition
    rw [C117_probability hv, e2]
  · unfold GaussProc.calcAcquisition
    rw [C117_expected hv, e2]

/-- Of several samples, the first with the greatest value is chosen. -/
theorem C117_sample_max {X : Type} (val : X → ℝ) (xs : List X) (hne : xs ≠ []) :
    ∃ pre best post, sampleAcquisitionMax val xs = .ok best ∧ xs = pre ++ best :: post ∧ (∀ y ∈ pre, val y < val best) ∧ ∀ y ∈ post, val y ≤ val best := by
  cases xs with
  | nil => exact absurd rfl hne
  | cons x xs =>
    obtain ⟨pre, post, h1, h2, h3⟩ := acquisitionMaxLoop_spec val xs x
    exact ⟨pre, _, post, rfl, h1, h2, h3⟩

/-- Without samples the behaviour is undefined. -/
theorem C117_violated_no_samples {X : Type} (val : X → ℝ) : sampleAcquisitionMax val ([] : List X) = .ub := rfl

/-- The hypotheses are met. -/
example : calcAcquisition .expectedImprovement 0 1 0 = 1 / Real.sqrt (2 * Real.pi) ∧ calcAcquisition .expectedImprovement 0 1 0 = ∫ y, max 0 (y - 0) ∂Predicted 0 1 := by
  refine ⟨?_, C117_expected one_pos 0⟩
  simp [calcAcquisition, normalPDF]

end Verif
