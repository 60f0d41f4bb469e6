import Verif.Model.Acquisition
import Mathlib.MeasureTheory.Integral.IntegralEqImproper
/-! Acquisition functions and the normal distribution. -/
namespace Verif
open MeasureTheory ProbabilityTheory Set Filter

theorem normalPDF_eq (x : ℝ) : normalPDF x = gaussianPDFReal 0 1 x := by
  unfold normalPDF gaussianPDFReal
  rw [one_div]
  simp only [NNReal.coe_one, mul_one, sub_zero]
  congr 2
  ring

theorem normalPDF_neg (x : ℝ) : normalPDF (-x) = normalPDF x := by unfold normalPDF; simp

/-- `normalCDF x` is the probability of being above `-x`. -/
theorem normalCDF_tail (x : ℝ) : normalCDF x = ∫ z in Ioi (-x), gaussianPDFReal 0 1 z := by
  have h2 : (0 : ℝ) < Real.sqrt 2 := Real.sqrt_pos.2 (by norm_num)
  unfold normalCDF erfcReal
  have hb := integral_comp_mul_left_Ioi (fun z : ℝ => Real.exp (-z ^ 2 / 2)) (-1 / Real.sqrt 2 * x) h2
  have e1 : Real.sqrt 2 * (-1 / Real.sqrt 2 * x) = -x := by field_simp
  have e2 : (fun t : ℝ => Real.exp (-(Real.sqrt 2 * t) ^ 2 / 2)) = fun t => Real.exp (-t ^ 2) := by
    funext t
    rw [mul_pow, Real.sq_sqrt (by norm_num)]
    congr 1
    ring
  rw [e1] at hb
  simp only [smul_eq_mul] at hb
  have hb' : ∫ t in Ioi (-1 / Real.sqrt 2 * x), Real.exp (-t ^ 2) = (Real.sqrt 2)⁻¹ * ∫ z in Ioi (-x), Real.exp (-z ^ 2 / 2) := by
    rw [← hb]
    exact congrArg (fun f : ℝ → ℝ => ∫ t in Ioi (-1 / Real.sqrt 2 * x), f t) e2.symm
  rw [hb']
  have e3 : ∀ z : ℝ, gaussianPDFReal 0 1 z = (Real.sqrt (2 * Real.pi))⁻¹ * Real.exp (-z ^ 2 / 2) := by
    intro z
    unfold gaussianPDFReal
    simp
  simp only [e3]
  rw [integral_const_mul, Real.sqrt_mul (by norm_num)]
  have hpi : (0 : ℝ) < Real.sqrt Real.pi := Real.sqrt_pos.2 Real.pi_pos
  field_simp

theorem normalCDF_measure (x : ℝ) : normalCDF x = (gaussianReal 0 1 (Ioi (-x))).toReal := by
  rw [normalCDF_tail, gaussianReal_apply_eq_integral 0 one_ne_zero, ENNReal.toReal_ofReal]
  exact setIntegral_nonneg measurableSet_Ioi fun z _ => gaussianPDFReal_nonneg _ _ _

/-- Every normal distribution is a scaled and shifted standard normal distribution. -/
theorem gaussian_standard (m s : ℝ) : gaussianReal m (.mk (s ^ 2) (sq_nonneg _)) = (gaussianReal 0 1).map fun z => m + s * z := by
  have h1 := gaussianReal_map_const_mul (μ := 0) (v := 1) s
  have h2 := gaussianReal_map_const_add (μ := s * 0) (v := .mk (s ^ 2) (sq_nonneg _) * 1) m
  rw [← h1, Measure.map_map (by fun_prop) (by fun_prop)] at h2
  rw [mul_zero, zero_add, mul_one] at h2
  rw [← h2]
  rfl

theorem gaussian_tail {m s : ℝ} (hs : 0 < s) (c : ℝ) :
    (gaussianReal m (.mk (s ^ 2) (sq_nonneg _)) (Ioi c)).toReal = normalCDF ((m - c) / s) := by
  rw [gaussian_standard, Measure.map_apply (by fun_prop) measurableSet_Ioi, normalCDF_measure]
  congr 2
  ext z
  simp only [mem_preimage, mem_Ioi]
  rw [neg_div', div_lt_iff₀ hs]
  constructor <;> intro h <;> linarith

theorem pdf_deriv (z : ℝ) : HasDerivAt (fun z => -normalPDF z) (z * normalPDF z) z := by
  have h1 : HasDerivAt (fun z : ℝ => -z * z / 2) (-z) z := by
    have h2 : HasDerivAt (fun z : ℝ => z ^ 2) (2 * z) z := by simpa using hasDerivAt_pow 2 z
    have h3 := (h2.div_const 2).neg
    refine (h3.congr_deriv (by ring)).congr_of_eventuallyEq ?_
    exact Filter.Eventually.of_forall fun y => by simp; ring
  have h4 := ((h1.exp).const_mul (1 / Real.sqrt (2 * Real.pi))).neg
  refine h4.congr_deriv ?_
  unfold normalPDF
  ring

theorem pdf_moment_integrable : Integrable fun z : ℝ => z * normalPDF z := by
  have h := (integrable_mul_exp_neg_mul_sq (b := 1 / 2) (by norm_num)).const_mul (1 / Real.sqrt (2 * Real.pi))
  refine h.congr (Filter.Eventually.of_forall fun z => ?_)
  unfold normalPDF
  have : -(1 / 2 : ℝ) * z ^ 2 = -z * z / 2 := by ring
  simp only
  rw [this]
  ring

theorem pdf_integrable : Integrable normalPDF := by
  have := integrable_gaussianPDFReal 0 1
  rwa [show gaussianPDFReal 0 1 = normalPDF from funext fun z => (normalPDF_eq z).symm] at this

theorem pdf_tendsto : Tendsto (fun z => -normalPDF z) atTop (nhds 0) := by
  have h1 : Tendsto (fun z : ℝ => z * z / 2) atTop atTop := (tendsto_id.atTop_mul_atTop₀ tendsto_id).atTop_div_const (by norm_num)
  have h2 := (Real.tendsto_exp_neg_atTop_nhds_zero.comp h1).const_mul (-(1 / Real.sqrt (2 * Real.pi)))
  rw [mul_zero] at h2
  refine h2.congr fun z => ?_
  unfold normalPDF
  simp only [Function.comp]
  have : -(z * z / 2) = -z * z / 2 := by ring
  rw [this]
  ring

theorem pdf_moment (a : ℝ) : ∫ z in Ioi a, z * normalPDF z = normalPDF a := by
  have := integral_Ioi_of_hasDerivAt_of_tendsto' (a := a) (f := fun z => -normalPDF z) (f' := fun z => z * normalPDF z) (m := 0)
    (fun z _ => pdf_deriv z) pdf_moment_integrable.integrableOn pdf_tendsto
  rw [this]
  ring

theorem improvement_indicator {m s : ℝ} (hs : 0 < s) (c : ℝ) : (fun z : ℝ => normalPDF z * max 0 (m + s * z - c)) =
    (Ioi (-((m - c) / s))).indicator fun z => (m - c) * normalPDF z + s * (z * normalPDF z) := by
  funext z
  by_cases hz : z ∈ Ioi (-((m - c) / s))
  · rw [indicator_of_mem hz]
    rw [mem_Ioi, neg_div', div_lt_iff₀ hs] at hz
    rw [max_eq_right (by linarith)]
    ring
  · rw [indicator_of_notMem hz]
    rw [mem_Ioi, neg_div', div_lt_iff₀ hs, not_lt] at hz
    rw [max_eq_left (by linarith), mul_zero]

theorem improvement_integrable {m s : ℝ} (hs : 0 < s) (c : ℝ) : Integrable fun z : ℝ => normalPDF z * max 0 (m + s * z - c) := by
  rw [improvement_indicator hs]
  exact ((pdf_integrable.const_mul _).add (pdf_moment_integrable.const_mul _)).indicator measurableSet_Ioi

theorem improvement_integral {m s : ℝ} (hs : 0 < s) (c : ℝ) :
    ∫ z, normalPDF z * max 0 (m + s * z - c) = (m - c) * normalCDF ((m - c) / s) + s * normalPDF ((m - c) / s) := by
  rw [improvement_indicator hs, integral_indicator measurableSet_Ioi, integral_add (pdf_integrable.integrableOn.const_mul _)
    (pdf_moment_integrable.integrableOn.const_mul _), integral_const_mul, integral_const_mul, pdf_moment, normalPDF_neg, normalCDF_tail]
  congr 3
  funext z
  exact normalPDF_eq z

theorem gaussian_improvement {m s : ℝ} (hs : 0 < s) (c : ℝ) :
    ∫ y, max 0 (y - c) ∂gaussianReal m (.mk (s ^ 2) (sq_nonneg _)) = (m - c) * normalCDF ((m - c) / s) + s * normalPDF ((m - c) / s) := by
  rw [gaussian_standard, integral_map (by fun_prop) (by fun_prop), integral_gaussianReal_eq_integral_smul one_ne_zero, ← improvement_integral hs]
  congr 1
  funext z
  rw [← normalPDF_eq, smul_eq_mul]

theorem gaussian_pos {S : Set ℝ} (hS : volume S ≠ 0) : 0 < (gaussianReal 0 1 S).toReal := by
  apply ENNReal.toReal_pos
  · intro h
    exact hS (gaussianReal_absolutelyContinuous' 0 one_ne_zero h)
  · exact measure_ne_top _ _

theorem normalCDF_pos (x : ℝ) : 0 < normalCDF x := by
  rw [normalCDF_measure]
  apply gaussian_pos
  simp

theorem normalCDF_strict {x y : ℝ} (h : x < y) : normalCDF x < normalCDF y := by
  rw [normalCDF_measure, normalCDF_measure]
  have hu : Ioi (-y) = Ioc (-y) (-x) ∪ Ioi (-x) := (Ioc_union_Ioi_eq_Ioi (by linarith)).symm
  rw [hu, measure_union (by rw [Set.disjoint_left]; intro z hz hz'; exact absurd hz.2 (not_le.2 hz')) measurableSet_Ioi,
    ENNReal.toReal_add (measure_ne_top _ _) (measure_ne_top _ _)]
  have := gaussian_pos (S := Ioc (-y) (-x)) (by rw [Real.volume_Ioc]; simp; linarith)
  linarith

theorem normalPDF_pos (x : ℝ) : 0 < normalPDF x := by
  rw [normalPDF_eq]
  exact gaussianPDFReal_pos _ _ _ one_ne_zero

/-- More is expected of a greater mean. -/
theorem improvement_strict {m m' s : ℝ} (hs : 0 < s) (h : m < m') (c : ℝ) :
    ∫ z, normalPDF z * max 0 (m + s * z - c) < ∫ z, normalPDF z * max 0 (m' + s * z - c) := by
  have h1 : (m' - m) * normalCDF ((m - c) / s) ≤ ∫ z, (normalPDF z * max 0 (m' + s * z - c) - normalPDF z * max 0 (m + s * z - c)) := by
    have e : (m' - m) * normalCDF ((m - c) / s) = ∫ z, (Ioi (-((m - c) / s))).indicator (fun z => (m' - m) * normalPDF z) z := by
      rw [integral_indicator measurableSet_Ioi, integral_const_mul, normalCDF_tail]
      congr 2
      funext z
      exact (normalPDF_eq z).symm
    rw [e]
    apply integral_mono ((pdf_integrable.const_mul _).indicator measurableSet_Ioi) ((improvement_integrable hs c).sub (improvement_integrable hs c))
    intro z
    simp only [Pi.sub_apply]
    rw [← mul_sub]
    have hp := normalPDF_pos z
    by_cases hz : z ∈ Ioi (-((m - c) / s))
    · rw [indicator_of_mem hz]
      rw [mem_Ioi, neg_div', div_lt_iff₀ hs] at hz
      rw [max_eq_right (by linarith), max_eq_right (by linarith)]
      apply le_of_eq
      ring
    · rw [indicator_of_notMem hz]
      have : max 0 (m + s * z - c) ≤ max 0 (m' + s * z - c) := max_le_max (le_refl _) (by linarith)
      exact mul_nonneg hp.le (by linarith)
  rw [integral_sub (improvement_integrable hs c) (improvement_integrable hs c)] at h1
  have h2 : 0 < (m' - m) * normalCDF ((m - c) / s) := mul_pos (by linarith) (normalCDF_pos _)
  linarith

theorem acquisitionMaxLoop_spec {X : Type} (val : X → ℝ) : ∀ (xs : List X) (best : X),
    ∃ pre post, best :: xs = pre ++ acquisitionMaxLoop val best (val best) xs :: post ∧
      (∀ y ∈ pre, val y < val (acquisitionMaxLoop val best (val best) xs)) ∧ ∀ y ∈ post, val y ≤ val (acquisitionMaxLoop val best (val best) xs)
  | [], best => ⟨[], [], rfl, by simp, by simp⟩
  | x :: xs, best => by
    unfold acquisitionMaxLoop
    split_ifs with h
    · obtain ⟨pre, post, h1, h2, h3⟩ := acquisitionMaxLoop_spec val xs x
      refine ⟨best :: pre, post, by rw [h1]; rfl, ?_, h3⟩
      intro y hy
      rcases List.mem_cons.1 hy with rfl | hy
      · cases pre with
        | nil =>
          simp only [List.nil_append, List.cons.injEq] at h1
          rw [← h1.1]
          exact h
        | cons p pre =>
          simp only [List.cons_append, List.cons.injEq] at h1
          have := h2 p (by simp)
          rw [← h1.1] at this
          exact lt_trans h this
      · exact h2 y hy
    · obtain ⟨pre, post, h1, h2, h3⟩ := acquisitionMaxLoop_spec val xs best
      cases pre with
      | nil =>
        simp only [List.nil_append, List.cons.injEq] at h1
        refine ⟨[], x :: post, ?_, by simp, ?_⟩
        · rw [← h1.1, ← h1.2]; rfl
        · intro y hy
          rcases List.mem_cons.1 hy with rfl | hy
          · rw [← h1.1]; exact not_lt.1 h
          · exact h3 y hy
      | cons p pre =>
        simp only [List.cons_append, List.cons.injEq] at h1
        refine ⟨p :: x :: pre, post, ?_, ?_, h3⟩
        · rw [← h1.1, List.cons_append, List.cons_append, ← h1.2]
        · intro y hy
          rcases List.mem_cons.1 hy with rfl | hy
          · exact h2 _ (by simp)
          · rcases List.mem_cons.1 hy with rfl | hy
            · have := h2 p (by simp)
              rw [← h1.1] at this
              exact lt_of_le_of_lt (not_lt.1 h) this
            · exact h2 y (by simp [hy])

end Verif
