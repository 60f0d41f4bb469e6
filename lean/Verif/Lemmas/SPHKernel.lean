import Verif.Spec.SPH
import Verif.Lemmas.LJ
import Mathlib.MeasureTheory.Measure.Lebesgue.VolumeOfBalls
import Mathlib.MeasureTheory.Integral.IntervalIntegral.FundThmCalculus
import Mathlib.Analysis.Calculus.Deriv.Pow
import Mathlib.Analysis.SpecialFunctions.Sqrt
import Mathlib.Tactic.Linarith
import Mathlib.Tactic.FieldSimp
import Mathlib.Tactic.Ring
/-! The kernel of the SPH library is the cubic spline. -/
namespace Verif
open Spec

theorem inner_self_eq (d : V3 ℝ) : d.inner d = normSq d := by
  unfold V3.inner normSq; ring

theorem len_nonneg (d : V3 ℝ) : 0 ≤ len d := Real.sqrt_nonneg _

theorem len_sq (d : V3 ℝ) : len d * len d = normSq d := Real.mul_self_sqrt (normSq_nonneg d)

theorem sphW_eq {h : ℝ} (hh : 0 < h) {d2 : ℝ} (hd : 0 ≤ d2) : sphW d2 h = spline (supportOf h) (Real.sqrt d2) := by
  have hH : sphSupport * h = supportOf h := by unfold sphSupport supportOf; norm_num
  have hp : 0 < supportOf h := by unfold supportOf; linarith
  unfold sphW
  simp only [hH]
  generalize hr : Real.sqrt d2 = r
  have r0 : 0 ≤ r := hr ▸ Real.sqrt_nonneg _
  have e2 : d2 = r * r := by rw [← hr, Real.mul_self_sqrt hd]
  generalize supportOf h = H at hp
  have pi0 := Real.pi_pos
  unfold spline
  have hlt : d2 < H * H ↔ r < H := by
    rw [e2]
    constructor
    · intro h1; by_contra h2; nlinarith
    · intro h1; nlinarith
  by_cases h1 : r < H
  · rw [if_pos (hlt.2 h1)]
    by_cases h2 : r ≤ H / 2
    · rw [if_pos h2]
      have : r / H ≤ 0.5 := by rw [div_le_iff₀ hp]; norm_num; linarith
      rw [max_eq_right (by linarith)]
      field_simp
      ring
    · rw [if_neg h2, if_pos h1.le]
      have : 0.5 ≤ r / H := by rw [le_div_iff₀ hp]; norm_num; linarith
      rw [max_eq_left (by linarith)]
      field_simp
      ring
  · rw [if_neg (fun h' => h1 (hlt.1 h'))]
    by_cases h3 : r ≤ H
    · have : r = H := le_antisymm h3 (not_lt.1 h1)
      rw [if_neg (by linarith), if_pos h3, this, div_self hp.ne']
      ring
    · rw [if_neg (by linarith), if_neg h3, mul_zero]

theorem sphGradW_eq {h : ℝ} (hh : 0 < h) (d : V3 ℝ) : sphGradW d h = gradKernel h d := by
  have hH : sphSupport * h = supportOf h := by unfold sphSupport supportOf; norm_num
  have hp : 0 < supportOf h := by unfold supportOf; linarith
  have he : (1.0e-6 : ℝ) * h = 4 / 10000000 * supportOf h := by unfold supportOf; norm_num; ring
  unfold sphGradW gradKernel
  simp only [hH, he, inner_self_eq]
  have el : Real.sqrt (normSq d) = len d := rfl
  simp only [el]
  congr 1
  have r0 := len_nonneg d
  generalize len d = r at r0
  generalize supportOf h = H at hp
  have pi0 := Real.pi_pos
  unfold splineSlope
  have hd : r + 4 / 10000000 ≠ 0 := by positivity
  have hden : r * H + 4 / 10000000 * H = (r + 4 / 10000000) * H := by ring
  rw [hden]
  by_cases h2 : r ≤ H / 2
  · have a1 : r / H ≤ 0.5 := by rw [div_le_iff₀ hp]; norm_num; linarith
    rw [if_pos h2, if_neg (by norm_num at a1 ⊢; linarith), if_neg (by linarith)]
    field_simp
    ring
  · rw [if_neg h2]
    have a1 : 0.5 < r / H := by rw [lt_div_iff₀ hp]; norm_num; linarith
    by_cases h3 : r ≤ H
    · have a2 : r / H ≤ 1 := by rw [div_le_iff₀ hp]; linarith
      rw [if_pos h3, if_neg (show ¬ 1 - r / H < 0 by linarith), if_pos (by linarith)]
      field_simp
      ring
    · have a2 : 1 < r / H := by rw [lt_div_iff₀ hp]; linarith
      rw [if_neg h3, if_pos (show 1 - r / H < 0 by linarith), if_pos (by linarith)]
      simp

theorem spline_zero {H r : ℝ} (hp : 0 < H) (hr : H ≤ r) : spline H r = 0 := by
  unfold spline
  rcases eq_or_lt_of_le hr with rfl | hr
  · rw [if_neg (by linarith), if_pos le_rfl, div_self hp.ne']; ring
  · rw [if_neg (by linarith), if_neg (by linarith), mul_zero]

theorem splineSlope_zero {H r : ℝ} (hp : 0 < H) (hr : H ≤ r) : splineSlope H r = 0 := by
  unfold splineSlope
  rcases eq_or_lt_of_le hr with rfl | hr
  · rw [if_neg (by linarith), if_pos le_rfl, div_self hp.ne']; ring
  · rw [if_neg (by linarith), if_neg (by linarith), mul_zero]

theorem spline_pos {H r : ℝ} (hp : 0 < H) (h0 : 0 ≤ r) (hr : r < H) : 0 < spline H r := by
  have pi0 := Real.pi_pos
  unfold spline
  refine mul_pos (by positivity) ?_
  have q0 : 0 ≤ r / H := by positivity
  have q1 : r / H < 1 := by rw [div_lt_one hp]; exact hr
  by_cases h2 : r ≤ H / 2
  · rw [if_pos h2]
    have q2 : r / H ≤ 1 / 2 := by rw [div_le_iff₀ hp]; linarith
    generalize r / H = q at *
    nlinarith [mul_nonneg q0 q0, mul_nonneg (mul_nonneg q0 q0) q0]
  · rw [if_neg h2, if_pos hr.le]
    have : 0 < 1 - r / H := by linarith
    positivity

/-- The two pieces as one formula. -/
theorem spline_ramp {H : ℝ} (hp : 0 < H) (r : ℝ) :
    spline H r = 16 / (Real.pi * H ^ 3) * ((max 0 (1 - r / H)) ^ 3 - 4 * (max 0 (1 / 2 - r / H)) ^ 3) := by
  unfold spline
  by_cases h2 : r ≤ H / 2
  · have q2 : r / H ≤ 1 / 2 := by rw [div_le_iff₀ hp]; linarith
    rw [if_pos h2, max_eq_right (by linarith), max_eq_right (by linarith)]
    field_simp
    ring
  · rw [if_neg h2]
    have q2 : 1 / 2 < r / H := by rw [lt_div_iff₀ hp]; linarith
    rw [max_eq_left (b := 1 / 2 - r / H) (by linarith)]
    by_cases h3 : r ≤ H
    · have q3 : r / H ≤ 1 := by rw [div_le_iff₀ hp]; linarith
      rw [if_pos h3, max_eq_right (by linarith)]
      field_simp
      ring
    · have q3 : 1 < r / H := by rw [lt_div_iff₀ hp]; linarith
      rw [if_neg h3, max_eq_left (by linarith)]
      ring

theorem splineSlope_ramp {H : ℝ} (hp : 0 < H) (r : ℝ) :
    splineSlope H r = 16 / (Real.pi * H ^ 3) * (-(3 * (max 0 (1 - r / H)) ^ 2) / H + 4 * (3 * (max 0 (1 / 2 - r / H)) ^ 2) / H) := by
  unfold splineSlope
  by_cases h2 : r ≤ H / 2
  · have q2 : r / H ≤ 1 / 2 := by rw [div_le_iff₀ hp]; linarith
    rw [if_pos h2, max_eq_right (by linarith), max_eq_right (by linarith)]
    field_simp
    ring
  · rw [if_neg h2]
    have q2 : 1 / 2 < r / H := by rw [lt_div_iff₀ hp]; linarith
    rw [max_eq_left (b := 1 / 2 - r / H) (by linarith)]
    by_cases h3 : r ≤ H
    · have q3 : r / H ≤ 1 := by rw [div_le_iff₀ hp]; linarith
      rw [if_pos h3, max_eq_right (by linarith)]
      field_simp
      ring
    · have q3 : 1 < r / H := by rw [lt_div_iff₀ hp]; linarith
      rw [if_neg h3, max_eq_left (by linarith)]
      ring

theorem ramp_hasDerivAt (x : ℝ) : HasDerivAt (fun y : ℝ => (max 0 y) ^ 3) (3 * (max 0 x) ^ 2) x := by
  rcases lt_trichotomy x 0 with hx | hx | hx
  · rw [max_eq_left hx.le]
    have : HasDerivAt (fun _ : ℝ => (0 : ℝ)) (3 * 0 ^ 2) x := by simpa using hasDerivAt_const x (0 : ℝ)
    refine this.congr_of_eventuallyEq ?_
    filter_upwards [Iio_mem_nhds hx] with y hy
    rw [max_eq_left (le_of_lt hy)]; norm_num
  · subst hx
    have hb : (fun y : ℝ => (max 0 y) ^ 3) =O[nhds 0] fun y : ℝ => ‖y - 0‖ ^ 3 := by
      refine Asymptotics.IsBigO.of_bound 1 (Filter.Eventually.of_forall fun y => ?_)
      rw [one_mul, sub_zero, norm_pow, norm_pow, norm_norm]
      refine pow_le_pow_left₀ (norm_nonneg _) ?_ 3
      rw [Real.norm_eq_abs, Real.norm_eq_abs, abs_of_nonneg (le_max_left 0 y)]
      exact max_le (abs_nonneg y) (le_abs_self y)
    have := hb.hasFDerivAt (𝕜 := ℝ) (by norm_num : 1 < 3)
    have := this.hasDerivAt
    simpa using this
  · rw [max_eq_right hx.le]
    have : HasDerivAt (fun y : ℝ => y ^ 3) (3 * x ^ 2) x := by simpa using hasDerivAt_pow 3 x
    refine this.congr_of_eventuallyEq ?_
    filter_upwards [Ioi_mem_nhds hx] with y hy
    rw [max_eq_right (le_of_lt hy)]

theorem spline_hasDerivAt {H : ℝ} (hp : 0 < H) (r : ℝ) : HasDerivAt (spline H) (splineSlope H r) r := by
  have e : spline H = fun r => 16 / (Real.pi * H ^ 3) * ((max 0 (1 - r / H)) ^ 3 - 4 * (max 0 (1 / 2 - r / H)) ^ 3) := funext (spline_ramp hp)
  rw [e, splineSlope_ramp hp]
  have lin : ∀ c : ℝ, HasDerivAt (fun r : ℝ => c - r / H) (-(1 / H)) r := fun c => by
    simpa using (hasDerivAt_id r).div_const H |>.const_sub c
  have h1 := (ramp_hasDerivAt (1 - r / H)).comp r (lin 1)
  have h2 := (ramp_hasDerivAt (1 / 2 - r / H)).comp r (lin (1 / 2))
  have h3 := ((h1.sub (h2.const_mul 4)).const_mul (16 / (Real.pi * H ^ 3)))
  refine h3.congr_deriv ?_
  ring

theorem splineSlope_nonpos {H r : ℝ} (hp : 0 < H) (h0 : 0 ≤ r) : splineSlope H r ≤ 0 := by
  have pi0 := Real.pi_pos
  unfold splineSlope
  refine mul_nonpos_of_nonneg_of_nonpos (by positivity) ?_
  have q0 : 0 ≤ r / H := by positivity
  by_cases h2 : r ≤ H / 2
  · rw [if_pos h2]
    have q2 : r / H ≤ 1 / 2 := by rw [div_le_iff₀ hp]; linarith
    nlinarith
  · rw [if_neg h2]
    split
    · nlinarith [sq_nonneg (1 - r / H)]
    · exact le_rfl

theorem spline_anti {H a b : ℝ} (hp : 0 < H) (h0 : 0 ≤ a) (hab : a ≤ b) : spline H b ≤ spline H a := by
  have hc : ContinuousOn (spline H) (Set.Ici 0) := fun x _ => (spline_hasDerivAt hp x).continuousAt.continuousWithinAt
  have := antitoneOn_of_deriv_nonpos (convex_Ici (0 : ℝ)) hc
    (fun x _ => (spline_hasDerivAt hp x).differentiableAt.differentiableWithinAt) (by
      intro x hx
      rw [interior_Ici] at hx
      rw [(spline_hasDerivAt hp x).deriv]
      exact splineSlope_nonpos hp (le_of_lt hx))
  exact this h0 (h0.trans hab) hab

open MeasureTheory in
private theorem radial {H : ℝ} (hp : 0 < H) : ∫ y in Set.Ioi (0 : ℝ), y ^ 2 * spline H y = 1 / (4 * Real.pi) := by
  have pi0 := Real.pi_pos
  have cont : Continuous fun y : ℝ => y ^ 2 * spline H y :=
    (continuous_pow 2).mul (continuous_iff_continuousAt.2 fun x => (spline_hasDerivAt hp x).continuousAt)
  have e1 : ∫ y in Set.Ioi (0 : ℝ), y ^ 2 * spline H y = ∫ y in Set.Ioc 0 H, y ^ 2 * spline H y := by
    refine setIntegral_eq_of_subset_of_forall_diff_eq_zero measurableSet_Ioi (fun y hy => hy.1) ?_
    intro y hy
    have : H ≤ y := by
      by_contra h'
      exact hy.2 ⟨hy.1, (not_le.1 h').le⟩
    rw [spline_zero hp this, mul_zero]
  rw [e1, ← intervalIntegral.integral_of_le hp.le,
    ← intervalIntegral.integral_add_adjacent_intervals (cont.intervalIntegrable 0 (H / 2)) (cont.intervalIntegrable (H / 2) H)]
  have d1 : ∀ y : ℝ, HasDerivAt (fun y : ℝ => 8 / (Real.pi * H ^ 3) * (y ^ 3 / 3 - 6 * y ^ 5 / (5 * H ^ 2) + y ^ 6 / H ^ 3))
      (y ^ 2 * (8 / (Real.pi * H ^ 3) * (1 - 6 * (y / H) ^ 2 + 6 * (y / H) ^ 3))) y := by
    intro y
    have := ((((hasDerivAt_pow 3 y).div_const 3).sub (((hasDerivAt_pow 5 y).const_mul 6).div_const (5 * H ^ 2))).add
      ((hasDerivAt_pow 6 y).div_const (H ^ 3))).const_mul (8 / (Real.pi * H ^ 3))
    refine this.congr_deriv ?_
    field_simp
    push_cast
    ring
  have d2 : ∀ y : ℝ, HasDerivAt (fun y : ℝ => 16 / (Real.pi * H ^ 3) * (y ^ 3 / 3 - 3 * y ^ 4 / (4 * H) + 3 * y ^ 5 / (5 * H ^ 2) - y ^ 6 / (6 * H ^ 3)))
      (y ^ 2 * (8 / (Real.pi * H ^ 3) * (2 * (1 - y / H) ^ 3))) y := by
    intro y
    have := (((((hasDerivAt_pow 3 y).div_const 3).sub (((hasDerivAt_pow 4 y).const_mul 3).div_const (4 * H))).add
      (((hasDerivAt_pow 5 y).const_mul 3).div_const (5 * H ^ 2))).sub ((hasDerivAt_pow 6 y).div_const (6 * H ^ 3))).const_mul (16 / (Real.pi * H ^ 3))
    refine this.congr_deriv ?_
    field_simp
    push_cast
    ring
  have i1 : ∫ y in (0 : ℝ)..(H / 2), y ^ 2 * spline H y = ∫ y in (0 : ℝ)..(H / 2), y ^ 2 * (8 / (Real.pi * H ^ 3) * (1 - 6 * (y / H) ^ 2 + 6 * (y / H) ^ 3)) := by
    refine intervalIntegral.integral_congr fun y hy => ?_
    rw [Set.uIcc_of_le (by linarith)] at hy
    simp only [spline, if_pos hy.2]
  have i2 : ∫ y in (H / 2)..H, y ^ 2 * spline H y = ∫ y in (H / 2)..H, y ^ 2 * (8 / (Real.pi * H ^ 3) * (2 * (1 - y / H) ^ 3)) := by
    refine intervalIntegral.integral_congr fun y hy => ?_
    rw [Set.uIcc_of_le (by linarith)] at hy
    simp only [spline]
    by_cases h2 : y ≤ H / 2
    · have : y = H / 2 := le_antisymm h2 hy.1
      rw [if_pos h2, this, show H / 2 / H = 1 / 2 by field_simp]
      norm_num
    · rw [if_neg h2, if_pos hy.2]
  rw [i1, i2, intervalIntegral.integral_eq_sub_of_hasDerivAt (fun y _ => d1 y) (Continuous.intervalIntegrable (by fun_prop) _ _),
    intervalIntegral.integral_eq_sub_of_hasDerivAt (fun y _ => d2 y) (Continuous.intervalIntegrable (by fun_prop) _ _)]
  field_simp
  ring

open MeasureTheory in
theorem spline_integral {H : ℝ} (hp : 0 < H) : ∫ p : EuclideanSpace ℝ (Fin 3), spline H ‖p‖ = 1 := by
  have pi0 := Real.pi_pos
  rw [integral_fun_norm_addHaar volume (spline H)]
  have hv : (volume : Measure (EuclideanSpace ℝ (Fin 3))).real (Metric.ball 0 1) = Real.pi * 4 / 3 := by
    unfold Measure.real
    rw [EuclideanSpace.volume_ball_fin_three]
    simp
    positivity
  have hd : Module.finrank ℝ (EuclideanSpace ℝ (Fin 3)) = 3 := by simp
  rw [hv, hd]
  simp only [Nat.add_one_sub_one, smul_eq_mul, nsmul_eq_mul]
  rw [radial hp]
  push_cast
  field_simp

theorem len_hasDerivAt {d : V3 ℝ} (hd : normSq d ≠ 0) (u : V3 ℝ) :
    HasDerivAt (fun t : ℝ => len (d + u.scale t)) (d.inner u / len d) 0 := by
  have hpos : 0 < normSq d := lt_of_le_of_ne (normSq_nonneg d) (Ne.symm hd)
  have h1 : HasDerivAt (fun t : ℝ => normSq (d + u.scale t)) (2 * d.inner u) 0 := by
    have lin : ∀ a b : ℝ, HasDerivAt (fun t : ℝ => (a + b * t) ^ 2) (2 * (a * b)) 0 := by
      intro a b
      have : HasDerivAt (fun t : ℝ => a + b * t) b 0 := by simpa using ((hasDerivAt_id (0 : ℝ)).const_mul b).const_add a
      have := this.pow 2
      refine this.congr_deriv ?_
      simp [mul_assoc]
    have := ((lin d.x u.x).add (lin d.y u.y)).add (lin d.z u.z)
    refine this.congr_deriv ?_
    unfold V3.inner
    ring
  have h2 := h1.sqrt (by simpa [normSq] using hd)
  refine h2.congr_deriv ?_
  unfold len
  have : normSq (d + u.scale 0) = normSq d := by simp [normSq]
  rw [this]
  have := Real.sqrt_pos.2 hpos
  field_simp

end Verif
