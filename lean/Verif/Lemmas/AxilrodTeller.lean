import Verif.Spec.AxilrodTeller
import Verif.Lemmas.LJ
import Verif.Spec.Gradient
import Mathlib.Analysis.Calculus.Deriv.Inv
import Mathlib.Analysis.Calculus.Deriv.Pow
import Mathlib.Analysis.Calculus.Deriv.Add
import Mathlib.Analysis.SpecialFunctions.Sqrt
/-! The kernel of the Axilrod-Teller functor over the reals. -/
namespace Verif
open Spec

/-- A component of the direction of the force: `u`, `v`, `w` are components of the sides `IJ`, `JK`, `KI`, `α = IJ·KI`, `β = IJ·JK`,
`γ = JK·KI`, `a`, `b`, `c` the squared lengths. -/
noncomputable def atDirComp (u v w α β γ a b c : ℝ) : ℝ :=
  v * α * (β - γ) + u * (β * γ - b * c + 5 * (α * β * γ) / a) + w * (-β * γ + a * b - 5 * (α * β * γ) / c)

/-- Products of the squared lengths and of the inner products of the sides. -/
noncomputable def atD (p q s : V3 ℝ) : ℝ := normSq (q - p) * normSq (s - q) * normSq (p - s)
/-- The inner products. -/
noncomputable def atP (p q s : V3 ℝ) : ℝ := (q - p).inner (p - s) * (q - p).inner (s - q) * (s - q).inner (p - s)

/-- The force on `p`. -/
noncomputable def atF (ν : ℝ) (p q s : V3 ℝ) : V3 ℝ :=
  let f := fun u v w => atDirComp u v w ((q - p).inner (p - s)) ((q - p).inner (s - q)) ((s - q).inner (p - s))
    (normSq (q - p)) (normSq (s - q)) (normSq (p - s)) * (3 * ν / (atD p q s * atD p q s * Real.sqrt (atD p q s)))
  ⟨f (q.x - p.x) (s.x - q.x) (p.x - s.x), f (q.y - p.y) (s.y - q.y) (p.y - s.y), f (q.z - p.z) (s.z - q.z) (p.z - s.z)⟩

theorem V3.inner_comm' (a b : V3 ℝ) : a.inner b = b.inner a := by unfold V3.inner; ring

theorem normSq_pos {p q : V3 ℝ} (h : p ≠ q) : 0 < normSq (p - q) :=
  lt_of_le_of_ne (normSq_nonneg _) fun h' => h (normSq_eq_zero h'.symm)

theorem atD_pos {p q s : V3 ℝ} (h1 : p ≠ q) (h2 : q ≠ s) (h3 : s ≠ p) : 0 < atD p q s := by
  unfold atD
  exact mul_pos (mul_pos (normSq_pos h1.symm) (normSq_pos h2.symm)) (normSq_pos h3.symm)

theorem atU_eq (ν : ℝ) {p q s : V3 ℝ} (h1 : p ≠ q) (h2 : q ≠ s) (h3 : s ≠ p) :
    atU ν p q s = ν * (atD p q s - 3 * atP p q s) / (atD p q s * atD p q s * Real.sqrt (atD p q s)) := by
  have d1 : 0 < atDist p q := Real.sqrt_pos.2 (normSq_pos h1)
  have d2 : 0 < atDist q s := Real.sqrt_pos.2 (normSq_pos h2)
  have d3 : 0 < atDist s p := Real.sqrt_pos.2 (normSq_pos h3)
  have e1 : atDist q p = atDist p q := by unfold atDist; rw [normSq_comm]
  have e2 : atDist s q = atDist q s := by unfold atDist; rw [normSq_comm]
  have e3 : atDist p s = atDist s p := by unfold atDist; rw [normSq_comm]
  have s1 : normSq (q - p) = atDist p q ^ 2 := by unfold atDist; rw [Real.sq_sqrt (normSq_nonneg _), normSq_comm]
  have s2 : normSq (s - q) = atDist q s ^ 2 := by unfold atDist; rw [Real.sq_sqrt (normSq_nonneg _), normSq_comm]
  have s3 : normSq (p - s) = atDist s p ^ 2 := by unfold atDist; rw [Real.sq_sqrt (normSq_nonneg _), normSq_comm]
  have hD : atD p q s = (atDist p q * atDist q s * atDist s p) ^ 2 := by unfold atD; rw [s1, s2, s3]; ring
  have hs : Real.sqrt (atD p q s) = atDist p q * atDist q s * atDist s p := by
    rw [hD]; exact Real.sqrt_sq (by positivity)
  have hP : (q - p).inner (s - p) * (s - q).inner (p - q) * (p - s).inner (q - s) = -atP p q s := by
    unfold atP V3.inner
    simp only [V3.sub_x, V3.sub_y, V3.sub_z]
    ring
  rw [hs, hD]
  unfold atU atCos
  rw [e1, e2, e3]
  have : (q - p).inner (s - p) / (atDist p q * atDist s p) * ((s - q).inner (p - q) / (atDist q s * atDist p q)) *
      ((p - s).inner (q - s) / (atDist s p * atDist q s)) = -atP p q s / (atDist p q * atDist q s * atDist s p) ^ 2 := by
    rw [← hP]; field_simp
  rw [this]
  field_simp
  ring

theorem atU_rotate (ν : ℝ) (p q s : V3 ℝ) : atU ν p q s = atU ν q s p := by
  unfold atU
  congr 1
  · ring
  · ring

theorem atDist_comm (p q : V3 ℝ) : atDist p q = atDist q p := by unfold atDist; rw [normSq_comm]

theorem atU_swap (ν : ℝ) (p q s : V3 ℝ) : atU ν p q s = atU ν q p s := by
  have c : ∀ p q s, atCos p q s = atCos p s q := by
    intro p q s; unfold atCos; rw [V3.inner_comm', mul_comm (atDist p q)]
  unfold atU
  rw [c p q s, c q s p, c s p q, atDist_comm p q, atDist_comm q s, atDist_comm s p]
  congr 1
  · ring
  · ring

/-- The derivative of the energy in one coordinate; `D`, `P` as functions of the coordinate. -/
theorem at_deriv (ν : ℝ) {D P : ℝ → ℝ} {t D' P' : ℝ} (hD : HasDerivAt D D' t) (hP : HasDerivAt P P' t) (h0 : 0 < D t) :
    HasDerivAt (fun x => ν * (D x - 3 * P x) / (D x * D x * Real.sqrt (D x)))
      (ν * ((D' - 3 * P') * D t - 5 / 2 * (D t - 3 * P t) * D') / (D t * D t * D t * Real.sqrt (D t))) t := by
  have hs : HasDerivAt (fun x => Real.sqrt (D x)) (D' / (2 * Real.sqrt (D t))) t := hD.sqrt h0.ne'
  have hden := (hD.mul hD).mul hs
  have hnum := (hD.sub (hP.const_mul 3)).const_mul ν
  have hpos : 0 < Real.sqrt (D t) := Real.sqrt_pos.2 h0
  have hne : D t * D t * Real.sqrt (D t) ≠ 0 := by positivity
  have := hnum.div hden hne
  refine this.congr_deriv ?_
  have hsq : Real.sqrt (D t) ^ 2 = D t := Real.sq_sqrt h0.le
  set r := Real.sqrt (D t) with hr
  simp only [Pi.mul_apply, Pi.sub_apply]
  rw [← hr, ← hsq]
  field_simp
  ring

theorem at_identity (u v w α β γ a b c ν D r : ℝ) (hw : w = -u - v) (ha : a = -(α + β)) (hb : b = -(β + γ)) (hc : c = -(α + γ))
    (ha0 : a ≠ 0) (hc0 : c ≠ 0) (hr : r ≠ 0) (hD : D = a * b * c) (hD0 : D ≠ 0) :
    ν * ((((-2 * u) * b * c + a * b * (2 * w)) - 3 * ((u - w) * β * γ + α * (-v) * γ + α * β * v)) * D -
      5 / 2 * (D - 3 * (α * β * γ)) * ((-2 * u) * b * c + a * b * (2 * w))) / (D * D * D * r) =
    -(atDirComp u v w α β γ a b c * (3 * ν / (D * D * r))) := by
  have e : -(atDirComp u v w α β γ a b c * (3 * ν / (D * D * r))) =
      -(3 * ν * (atDirComp u v w α β γ a b c * D)) / (D * D * D * r) := by field_simp
  rw [e]
  congr 1
  have e2 : atDirComp u v w α β γ a b c * D =
      (v * α * (β - γ)) * D + u * ((β * γ - b * c) * D + 5 * (α * β * γ) * (b * c)) + w * ((-β * γ + a * b) * D - 5 * (α * β * γ) * (a * b)) := by
    unfold atDirComp
    rw [hD]
    field_simp
  rw [e2, hD, hw, ha, hb, hc]
  ring

theorem at_component (ν : ℝ) {A C α β γ : ℝ → ℝ} {t u v w b : ℝ} (hA : HasDerivAt A (-2 * u) t) (hC : HasDerivAt C (2 * w) t)
    (hα : HasDerivAt α (u - w) t) (hβ : HasDerivAt β (-v) t) (hγ : HasDerivAt γ v t) (hw : w = -u - v) (ha : A t = -(α t + β t))
    (hb : b = -(β t + γ t)) (hc : C t = -(α t + γ t)) (ha0 : 0 < A t) (hb0 : 0 < b) (hc0 : 0 < C t) :
    HasDerivAt (fun x => ν * (A x * b * C x - 3 * (α x * β x * γ x)) / (A x * b * C x * (A x * b * C x) * Real.sqrt (A x * b * C x)))
      (-(atDirComp u v w (α t) (β t) (γ t) (A t) b (C t) *
        (3 * ν / (A t * b * C t * (A t * b * C t) * Real.sqrt (A t * b * C t))))) t := by
  have h0 : 0 < A t * b * C t := by positivity
  have hD : HasDerivAt (fun x => A x * b * C x) ((-2 * u) * b * C t + A t * b * (2 * w)) t := (hA.mul_const b).mul hC
  have hP : HasDerivAt (fun x => α x * β x * γ x) ((u - w) * β t * γ t + α t * (-v) * γ t + α t * β t * v) t := by
    have := (hα.mul hβ).mul hγ
    refine this.congr_deriv ?_
    simp only [Pi.mul_apply]
    ring
  refine (at_deriv ν hD hP h0).congr_deriv ?_
  exact at_identity u v w (α t) (β t) (γ t) (A t) b (C t) ν _ _ hw ha hb hc ha0.ne' hc0.ne' (Real.sqrt_pos.2 h0).ne' rfl h0.ne'

theorem sides (p q s : V3 ℝ) : normSq (q - p) = -((q - p).inner (p - s) + (q - p).inner (s - q)) ∧
    normSq (s - q) = -((q - p).inner (s - q) + (s - q).inner (p - s)) ∧
    normSq (p - s) = -((q - p).inner (p - s) + (s - q).inner (p - s)) := by
  unfold normSq V3.inner
  simp only [V3.sub_x, V3.sub_y, V3.sub_z]
  refine ⟨?_, ?_, ?_⟩ <;> ring

private theorem quad (a b k m : ℝ) : HasDerivAt (fun t : ℝ => (b - t) ^ 2 + k + m) (-2 * (b - a)) a := by
  have := (((hasDerivAt_id a).const_sub b).pow 2).add_const k |>.add_const m
  exact this.congr_deriv (by simp)

/-- The energy near a position. -/
private theorem eventually (ν : ℝ) {q s : V3 ℝ} (g : ℝ → V3 ℝ) (hg : Continuous fun t => (g t).x) (hg2 : Continuous fun t => (g t).y)
    (hg3 : Continuous fun t => (g t).z) {t0 : ℝ} (h1 : g t0 ≠ q) (h2 : q ≠ s) (h3 : s ≠ g t0) :
    (fun t => atU ν (g t) q s) =ᶠ[nhds t0] fun t => ν * (atD (g t) q s - 3 * atP (g t) q s) /
      (atD (g t) q s * atD (g t) q s * Real.sqrt (atD (g t) q s)) := by
  have c : ∀ r : V3 ℝ, Continuous fun t => normSq (g t - r) := by
    intro r
    unfold normSq
    simp only [V3.sub_x, V3.sub_y, V3.sub_z]
    fun_prop
  have e : ∀ r : V3 ℝ, g t0 ≠ r → ∀ᶠ t in nhds t0, g t ≠ r := by
    intro r hr
    have := (c r).continuousAt.eventually_ne (normSq_pos hr).ne'
    refine this.mono fun t ht h' => ht ?_
    rw [h']; simp [normSq]
  filter_upwards [e q h1, e s h3.symm] with t k1 k2
  exact atU_eq ν k1 h2 k2.symm

theorem atU_gradient (ν : ℝ) {p q s : V3 ℝ} (h1 : p ≠ q) (h2 : q ≠ s) (h3 : s ≠ p) :
    MinusGradient (fun p => atU ν p q s) (atF ν p q s) p := by
  obtain ⟨e1, e2, e3⟩ := sides p q s
  have hb0 := normSq_pos h2.symm
  have ha0 := normSq_pos h1.symm
  have hc0 := normSq_pos h3.symm
  refine ⟨?_, ?_, ?_⟩
  · refine HasDerivAt.congr_of_eventuallyEq ?_ (eventually ν (fun t => ⟨t, p.y, p.z⟩) (by fun_prop) (by fun_prop) (by fun_prop) h1 h2 h3)
    refine (at_component ν (A := fun t => normSq (q - (⟨t, p.y, p.z⟩ : V3 ℝ))) (C := fun t => normSq ((⟨t, p.y, p.z⟩ : V3 ℝ) - s))
      (α := fun t => (q - (⟨t, p.y, p.z⟩ : V3 ℝ)).inner ((⟨t, p.y, p.z⟩ : V3 ℝ) - s)) (β := fun t => (q - (⟨t, p.y, p.z⟩ : V3 ℝ)).inner (s - q))
      (γ := fun t => (s - q).inner ((⟨t, p.y, p.z⟩ : V3 ℝ) - s)) (t := p.x) (u := q.x - p.x) (v := s.x - q.x) (w := p.x - s.x)
      (b := normSq (s - q)) ?_ ?_ ?_ ?_ ?_ (by ring) e1 e2 e3 ha0 hb0 hc0)
    · unfold normSq; simp only [V3.sub_x, V3.sub_y, V3.sub_z]
      exact quad p.x q.x _ _
    · unfold normSq; simp only [V3.sub_x, V3.sub_y, V3.sub_z]
      have := (((hasDerivAt_id p.x).sub_const s.x).pow 2).add_const ((p.y - s.y) ^ 2) |>.add_const ((p.z - s.z) ^ 2)
      exact this.congr_deriv (by simp)
    · unfold V3.inner; simp only [V3.sub_x, V3.sub_y, V3.sub_z]
      have := (((hasDerivAt_id p.x).const_sub q.x).mul ((hasDerivAt_id p.x).sub_const s.x)).add_const ((q.y - p.y) * (p.y - s.y))
        |>.add_const ((q.z - p.z) * (p.z - s.z))
      exact this.congr_deriv (by simp; ring)
    · unfold V3.inner; simp only [V3.sub_x, V3.sub_y, V3.sub_z]
      have := (((hasDerivAt_id p.x).const_sub q.x).mul_const (s.x - q.x)).add_const ((q.y - p.y) * (s.y - q.y))
        |>.add_const ((q.z - p.z) * (s.z - q.z))
      exact this.congr_deriv (by simp)
    · unfold V3.inner; simp only [V3.sub_x, V3.sub_y, V3.sub_z]
      have := (((hasDerivAt_id p.x).sub_const s.x).const_mul (s.x - q.x)).add_const ((s.y - q.y) * (p.y - s.y))
        |>.add_const ((s.z - q.z) * (p.z - s.z))
      exact this.congr_deriv (by simp)
  · refine HasDerivAt.congr_of_eventuallyEq ?_ (eventually ν (fun t => ⟨p.x, t, p.z⟩) (by fun_prop) (by fun_prop) (by fun_prop) h1 h2 h3)
    refine (at_component ν (A := fun t => normSq (q - (⟨p.x, t, p.z⟩ : V3 ℝ))) (C := fun t => normSq ((⟨p.x, t, p.z⟩ : V3 ℝ) - s))
      (α := fun t => (q - (⟨p.x, t, p.z⟩ : V3 ℝ)).inner ((⟨p.x, t, p.z⟩ : V3 ℝ) - s)) (β := fun t => (q - (⟨p.x, t, p.z⟩ : V3 ℝ)).inner (s - q))
      (γ := fun t => (s - q).inner ((⟨p.x, t, p.z⟩ : V3 ℝ) - s)) (t := p.y) (u := q.y - p.y) (v := s.y - q.y) (w := p.y - s.y)
      (b := normSq (s - q)) ?_ ?_ ?_ ?_ ?_ (by ring) e1 e2 e3 ha0 hb0 hc0)
    · unfold normSq; simp only [V3.sub_x, V3.sub_y, V3.sub_z]
      have := (((hasDerivAt_id p.y).const_sub q.y).pow 2).const_add ((q.x - p.x) ^ 2) |>.add_const ((q.z - p.z) ^ 2)
      exact this.congr_deriv (by simp)
    · unfold normSq; simp only [V3.sub_x, V3.sub_y, V3.sub_z]
      have := (((hasDerivAt_id p.y).sub_const s.y).pow 2).const_add ((p.x - s.x) ^ 2) |>.add_const ((p.z - s.z) ^ 2)
      exact this.congr_deriv (by simp)
    · unfold V3.inner; simp only [V3.sub_x, V3.sub_y, V3.sub_z]
      have := (((hasDerivAt_id p.y).const_sub q.y).mul ((hasDerivAt_id p.y).sub_const s.y)).const_add ((q.x - p.x) * (p.x - s.x))
        |>.add_const ((q.z - p.z) * (p.z - s.z))
      exact this.congr_deriv (by simp; ring)
    · unfold V3.inner; simp only [V3.sub_x, V3.sub_y, V3.sub_z]
      have := (((hasDerivAt_id p.y).const_sub q.y).mul_const (s.y - q.y)).const_add ((q.x - p.x) * (s.x - q.x))
        |>.add_const ((q.z - p.z) * (s.z - q.z))
      exact this.congr_deriv (by simp)
    · unfold V3.inner; simp only [V3.sub_x, V3.sub_y, V3.sub_z]
      have := (((hasDerivAt_id p.y).sub_const s.y).const_mul (s.y - q.y)).const_add ((s.x - q.x) * (p.x - s.x))
        |>.add_const ((s.z - q.z) * (p.z - s.z))
      exact this.congr_deriv (by simp)
  · refine HasDerivAt.congr_of_eventuallyEq ?_ (eventually ν (fun t => ⟨p.x, p.y, t⟩) (by fun_prop) (by fun_prop) (by fun_prop) h1 h2 h3)
    refine (at_component ν (A := fun t => normSq (q - (⟨p.x, p.y, t⟩ : V3 ℝ))) (C := fun t => normSq ((⟨p.x, p.y, t⟩ : V3 ℝ) - s))
      (α := fun t => (q - (⟨p.x, p.y, t⟩ : V3 ℝ)).inner ((⟨p.x, p.y, t⟩ : V3 ℝ) - s)) (β := fun t => (q - (⟨p.x, p.y, t⟩ : V3 ℝ)).inner (s - q))
      (γ := fun t => (s - q).inner ((⟨p.x, p.y, t⟩ : V3 ℝ) - s)) (t := p.z) (u := q.z - p.z) (v := s.z - q.z) (w := p.z - s.z)
      (b := normSq (s - q)) ?_ ?_ ?_ ?_ ?_ (by ring) e1 e2 e3 ha0 hb0 hc0)
    · unfold normSq; simp only [V3.sub_x, V3.sub_y, V3.sub_z]
      have := (((hasDerivAt_id p.z).const_sub q.z).pow 2).const_add ((q.x - p.x) ^ 2 + (q.y - p.y) ^ 2)
      exact this.congr_deriv (by simp)
    · unfold normSq; simp only [V3.sub_x, V3.sub_y, V3.sub_z]
      have := (((hasDerivAt_id p.z).sub_const s.z).pow 2).const_add ((p.x - s.x) ^ 2 + (p.y - s.y) ^ 2)
      exact this.congr_deriv (by simp)
    · unfold V3.inner; simp only [V3.sub_x, V3.sub_y, V3.sub_z]
      have := (((hasDerivAt_id p.z).const_sub q.z).mul ((hasDerivAt_id p.z).sub_const s.z)).const_add ((q.x - p.x) * (p.x - s.x) +
        (q.y - p.y) * (p.y - s.y))
      exact this.congr_deriv (by simp; ring)
    · unfold V3.inner; simp only [V3.sub_x, V3.sub_y, V3.sub_z]
      have := (((hasDerivAt_id p.z).const_sub q.z).mul_const (s.z - q.z)).const_add ((q.x - p.x) * (s.x - q.x) +
        (q.y - p.y) * (s.y - q.y))
      exact this.congr_deriv (by simp)
    · unfold V3.inner; simp only [V3.sub_x, V3.sub_y, V3.sub_z]
      have := (((hasDerivAt_id p.z).sub_const s.z).const_mul (s.z - q.z)).const_add ((s.x - q.x) * (p.x - s.x) +
        (s.y - q.y) * (p.y - s.y))
      exact this.congr_deriv (by simp)

theorem atD_rotate (p q s : V3 ℝ) : atD q s p = atD p q s := by unfold atD; ring
theorem atD_swap (p q s : V3 ℝ) : atD p s q = atD p q s := by
  unfold atD; rw [normSq_comm s p, normSq_comm q s, normSq_comm p q]; ring
theorem atP_rotate (p q s : V3 ℝ) : atP q s p = atP p q s := by
  unfold atP; rw [V3.inner_comm' (s - q) (q - p), V3.inner_comm' (p - s) (q - p)]; ring

theorem atF_swap (ν : ℝ) (p q s : V3 ℝ) : atF ν p s q = atF ν p q s := by
  have i1 : (s - p).inner (p - q) = (q - p).inner (p - s) := by
    unfold V3.inner; simp only [V3.sub_x, V3.sub_y, V3.sub_z]; ring
  have i2 : (s - p).inner (q - s) = (s - q).inner (p - s) := by
    unfold V3.inner; simp only [V3.sub_x, V3.sub_y, V3.sub_z]; ring
  have i3 : (q - s).inner (p - q) = (q - p).inner (s - q) := by
    unfold V3.inner; simp only [V3.sub_x, V3.sub_y, V3.sub_z]; ring
  unfold atF
  simp only [atD_swap, i1, i2, i3, normSq_comm s p, normSq_comm q s, normSq_comm p q]
  refine V3.ext' ?_ ?_ ?_ <;> (simp only [atDirComp]; ring)

theorem atF_sum (ν : ℝ) (p q s : V3 ℝ) : atF ν p q s + atF ν q s p + atF ν s p q = 0 := by
  unfold atF
  simp only [atD_rotate, atD_rotate q s p, V3.inner_comm' (s - q) (q - p), V3.inner_comm' (p - s) (q - p), V3.inner_comm' (p - s) (s - q)]
  refine V3.ext' ?_ ?_ ?_
  all_goals
    simp only [V3.add_x, V3.add_y, V3.add_z, V3.zero_x, V3.zero_y, V3.zero_z, atDirComp]
    ring

theorem Num.fin_inj_eq {a b : ℝ} (h : a = b) : Num.fin a = Num.fin b := by rw [h]

/-- The kernel. -/
theorem atKernel_eq (c : ATCfg ℝ) (i j k : Mol ℝ) (h1 : i.pos ≠ j.pos) (h2 : j.pos ≠ k.pos) (h3 : k.pos ≠ i.pos) :
    atKernel sqrtR c i j k = ((atF (c.nuOf i.type j.type k.type) i.pos j.pos k.pos).fin,
      (atF (c.nuOf i.type j.type k.type) j.pos k.pos i.pos).fin, (atF (c.nuOf i.type j.type k.type) k.pos i.pos j.pos).fin,
      .fin (3 * atU (c.nuOf i.type j.type k.type) i.pos j.pos k.pos)) := by
  have hD := atD_pos h1 h2 h3
  have ha := (normSq_pos h1.symm).ne'
  have hb := (normSq_pos h2.symm).ne'
  have hc := (normSq_pos h3.symm).ne'
  have hs : sqrtR (atD i.pos j.pos k.pos) = .fin (Real.sqrt (atD i.pos j.pos k.pos)) := by
    unfold sqrtR; rw [if_neg (not_lt.2 hD.le)]
  have hD' : normSq (j.pos - i.pos) * normSq (k.pos - j.pos) * normSq (i.pos - k.pos) = atD i.pos j.pos k.pos := rfl
  have hne : atD i.pos j.pos k.pos * atD i.pos j.pos k.pos * Real.sqrt (atD i.pos j.pos k.pos) ≠ 0 := by
    have := Real.sqrt_pos.2 hD; positivity
  have hF3 : atF (c.nuOf i.type j.type k.type) k.pos i.pos j.pos =
      -(atF (c.nuOf i.type j.type k.type) i.pos j.pos k.pos + atF (c.nuOf i.type j.type k.type) j.pos k.pos i.pos) := by
    have := atF_sum (c.nuOf i.type j.type k.type) i.pos j.pos k.pos
    have hx := congrArg V3.x this
    have hy := congrArg V3.y this
    have hz := congrArg V3.z this
    simp only [V3.add_x, V3.add_y, V3.add_z, V3.zero_x, V3.zero_y, V3.zero_z] at hx hy hz
    refine V3.ext' ?_ ?_ ?_
    · rw [V3.neg_x, V3.add_x]; linarith
    · rw [V3.neg_y, V3.add_y]; linarith
    · rw [V3.neg_z, V3.add_z]; linarith
  rw [hF3]
  unfold atKernel
  simp only [inner_normSq, hD', hs, Num.fin_mul, Num.fin_div hne, Num.fin_div ha, Num.fin_div hb, Num.fin_div hc, Num.fin_add, Num.fin_sub]
  refine Prod.ext ?_ (Prod.ext ?_ (Prod.ext ?_ ?_))
  · refine V3.ext' ?_ ?_ ?_
    all_goals
      simp only [V3.scale_x, V3.scale_y, V3.scale_z, V3.add_x, V3.add_y, V3.add_z, V3.fin_x, V3.fin_y, V3.fin_z, V3.sub_x, V3.sub_y, V3.sub_z,
        Num.fin_mul, Num.fin_add, atF, atDirComp]
  · have r1 := atD_rotate i.pos j.pos k.pos
    refine V3.ext' ?_ ?_ ?_
    all_goals
      simp only [V3.scale_x, V3.scale_y, V3.scale_z, V3.add_x, V3.add_y, V3.add_z, V3.fin_x, V3.fin_y, V3.fin_z, V3.sub_x, V3.sub_y, V3.sub_z,
        Num.fin_mul, Num.fin_add, atF, atDirComp, r1]
      rw [V3.inner_comm' (k.pos - j.pos) (j.pos - i.pos), V3.inner_comm' (i.pos - k.pos) (j.pos - i.pos)]
      refine Num.fin_inj_eq ?_
      ring
  · have r1 := atD_rotate i.pos j.pos k.pos
    refine V3.ext' ?_ ?_ ?_
    all_goals
      simp only [V3.scale_x, V3.scale_y, V3.scale_z, V3.add_x, V3.add_y, V3.add_z, V3.fin_x, V3.fin_y, V3.fin_z, V3.sub_x, V3.sub_y, V3.sub_z,
        V3.neg_x, V3.neg_y, V3.neg_z, Num.fin_mul, Num.fin_add, atF, atDirComp, r1]
      rw [V3.inner_comm' (k.pos - j.pos) (j.pos - i.pos), V3.inner_comm' (i.pos - k.pos) (j.pos - i.pos)]
      refine Num.fin_inj_eq ?_
      ring
  · simp only
    refine Num.fin_inj_eq ?_
    rw [atU_eq _ h1 h2 h3]
    unfold atP
    ring

end Verif
