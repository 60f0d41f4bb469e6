import Verif.Model.Smoothing
import Verif.Spec.Smoothing
import Mathlib.Tactic.FieldSimp
import Mathlib.Tactic.LinearCombination
import Mathlib.Tactic.Ring
import Mathlib.Tactic.Linarith
import Mathlib.Tactic.Positivity
/-!
Lemmas on weighted least squares (C107).
-/
namespace Verif

open Spec.Smoothing

/-- A sum over points of a polynomial is a combination of moments. `u` are the weights. -/
theorem moments (u : Evidence → Rat) (ps : List Evidence) (c0 c1 c2 d0 d1 : Rat) :
    (ps.map fun p => u p * (c0 + c1 * p.iteration + c2 * (p.iteration : Rat) ^ 2 + d0 * p.value + d1 * (p.iteration * p.value))).sum =
      c0 * (ps.map u).sum + c1 * (ps.map fun p => u p * p.iteration).sum + c2 * (ps.map fun p => u p * (p.iteration : Rat) ^ 2).sum +
        d0 * (ps.map fun p => u p * p.value).sum + d1 * (ps.map fun p => u p * (p.iteration * p.value)).sum := by
  induction ps with
  | nil => simp
  | cons p ps ih =>
    simp only [List.map_cons, List.sum_cons, ih]
    ring

theorem moments_sq (u : Evidence → Rat) (ps : List Evidence) (a b a' b' : Rat) :
    (ps.map fun p => u p * ((p.value : Rat) - (a' + b' * p.iteration)) ^ 2).sum =
      (ps.map fun p => u p * ((p.value : Rat) - (a + b * p.iteration)) ^ 2).sum +
      (ps.map fun p => u p * ((a - a') + (b - b') * p.iteration) ^ 2).sum +
      2 * ((a - a') * (ps.map fun p => u p * ((p.value : Rat) - (a + b * p.iteration))).sum +
        (b - b') * (ps.map fun p => u p * (((p.value : Rat) - (a + b * p.iteration)) * p.iteration)).sum) := by
  induction ps with
  | nil => simp
  | cons p ps ih =>
    simp only [List.map_cons, List.sum_cons, ih]
    ring

theorem sum_sq_nonneg (u : Evidence → Rat) (ps : List Evidence) (hu : ∀ p ∈ ps, 0 ≤ u p) (f : Evidence → Rat) :
    0 ≤ (ps.map fun p => u p * f p ^ 2).sum := by
  apply List.sum_nonneg
  intro x hx
  obtain ⟨p, hp, rfl⟩ := List.mem_map.1 hx
  exact mul_nonneg (hu p hp) (sq_nonneg _)

/-- Normal equations suffice for a minimum. -/
theorem normal_best (u : Evidence → Rat) (ps : List Evidence) (hu : ∀ p ∈ ps, 0 ≤ u p) {a b : Rat}
    (h0 : (ps.map fun p => u p * ((p.value : Rat) - (a + b * p.iteration))).sum = 0)
    (h1 : (ps.map fun p => u p * (((p.value : Rat) - (a + b * p.iteration)) * p.iteration)).sum = 0) (a' b' : Rat) :
    (ps.map fun p => u p * ((p.value : Rat) - (a + b * p.iteration)) ^ 2).sum ≤
      (ps.map fun p => u p * ((p.value : Rat) - (a' + b' * p.iteration)) ^ 2).sum := by
  rw [moments_sq u ps a b a' b', h0, h1]
  have := sum_sq_nonneg u ps hu fun p => (a - a') + (b - b') * p.iteration
  linarith

theorem resid_moments (u : Evidence → Rat) (ps : List Evidence) (a b : Rat) :
    (ps.map fun p => u p * ((p.value : Rat) - (a + b * p.iteration))).sum =
      (ps.map fun p => u p * p.value).sum - a * (ps.map u).sum - b * (ps.map fun p => u p * p.iteration).sum := by
  have := moments u ps (-a) (-b) 0 1 0
  rw [show (ps.map fun p => u p * ((p.value : Rat) - (a + b * p.iteration))) =
    ps.map fun p => u p * (-a + -b * p.iteration + 0 * (p.iteration : Rat) ^ 2 + 1 * p.value + 0 * (p.iteration * p.value)) from
      List.map_congr_left fun p _ => by ring, this]
  ring

theorem resid_moments1 (u : Evidence → Rat) (ps : List Evidence) (a b : Rat) :
    (ps.map fun p => u p * (((p.value : Rat) - (a + b * p.iteration)) * p.iteration)).sum =
      (ps.map fun p => u p * (p.iteration * p.value)).sum - a * (ps.map fun p => u p * p.iteration).sum -
        b * (ps.map fun p => u p * (p.iteration : Rat) ^ 2).sum := by
  have := moments u ps 0 (-a) (-b) 0 1
  rw [show (ps.map fun p => u p * (((p.value : Rat) - (a + b * p.iteration)) * p.iteration)) =
    ps.map fun p => u p * (0 + -a * p.iteration + -b * (p.iteration : Rat) ^ 2 + 0 * p.value + 1 * (p.iteration * p.value)) from
      List.map_congr_left fun p _ => by ring, this]
  ring

theorem dev_moments (u : Evidence → Rat) (ps : List Evidence) (m : Rat) :
    (ps.map fun p => u p * ((p.iteration : Rat) - m) ^ 2).sum =
      (ps.map fun p => u p * (p.iteration : Rat) ^ 2).sum - 2 * m * (ps.map fun p => u p * p.iteration).sum + m ^ 2 * (ps.map u).sum := by
  have := moments u ps (m ^ 2) (-2 * m) 1 0 0
  rw [show (ps.map fun p => u p * ((p.iteration : Rat) - m) ^ 2) =
    ps.map fun p => u p * (m ^ 2 + -2 * m * p.iteration + 1 * (p.iteration : Rat) ^ 2 + 0 * p.value + 0 * (p.iteration * p.value)) from
      List.map_congr_left fun p _ => by ring, this]
  ring

/-- The fit of a line: existence and uniqueness of its value at `x`. -/
theorem regression (u : Evidence → Rat) (ps : List Evidence) (hu : ∀ p ∈ ps, 0 ≤ u p) (hU : 0 < (ps.map u).sum) {m v : Rat}
    (hm : (ps.map u).sum * m = (ps.map fun p => u p * p.iteration).sum)
    (hv : (ps.map u).sum * v = (ps.map fun p => u p * ((p.iteration : Rat) - m) ^ 2).sum) (hv0 : 0 < v) (x fit : Rat)
    (hfit : (ps.map u).sum * fit = (ps.map fun p => u p * (1 + (x - m) / v * ((p.iteration : Rat) - m)) * p.value).sum) :
    (∃ a b, fit = a + b * x ∧ ∀ a' b', (ps.map fun p => u p * ((p.value : Rat) - (a + b * p.iteration)) ^ 2).sum ≤
        (ps.map fun p => u p * ((p.value : Rat) - (a' + b' * p.iteration)) ^ 2).sum) ∧
    ∀ a b, (∀ a' b', (ps.map fun p => u p * ((p.value : Rat) - (a + b * p.iteration)) ^ 2).sum ≤
        (ps.map fun p => u p * ((p.value : Rat) - (a' + b' * p.iteration)) ^ 2).sum) → fit = a + b * x := by
  have hfit' : (ps.map fun p => u p * (1 + (x - m) / v * ((p.iteration : Rat) - m)) * p.value).sum =
      (1 - (x - m) / v * m) * (ps.map fun p => u p * p.value).sum + (x - m) / v * (ps.map fun p => u p * (p.iteration * p.value)).sum := by
    have := moments u ps 0 0 0 (1 - (x - m) / v * m) ((x - m) / v)
    rw [show (ps.map fun p => u p * (1 + (x - m) / v * ((p.iteration : Rat) - m)) * p.value) =
      ps.map fun p => u p * (0 + 0 * p.iteration + 0 * (p.iteration : Rat) ^ 2 + (1 - (x - m) / v * m) * p.value + (x - m) / v * (p.iteration * p.value)) from
        List.map_congr_left fun p _ => by ring, this]
    ring
  rw [dev_moments] at hv
  rw [hfit'] at hfit
  have r0 := resid_moments u ps
  have r1 := resid_moments1 u ps
  have key := @normal_best u ps hu
  have sq := moments_sq u ps
  have quad : ∀ α β, (ps.map fun p => u p * (α + β * p.iteration) ^ 2).sum = (ps.map u).sum * ((α + m * β) ^ 2 + v * β ^ 2) := by
    intro α β
    have := moments u ps (α ^ 2) (2 * α * β) (β ^ 2) 0 0
    rw [show (ps.map fun p => u p * (α + β * p.iteration) ^ 2) =
      ps.map fun p => u p * (α ^ 2 + 2 * α * β * p.iteration + β ^ 2 * (p.iteration : Rat) ^ 2 + 0 * p.value + 0 * (p.iteration * p.value)) from
        List.map_congr_left fun p _ => by ring, this, ← hm]
    rw [← hm] at hv
    linear_combination (-β ^ 2) * hv
  generalize (ps.map u).sum = A0 at *
  generalize (ps.map fun p => u p * (p.iteration : Rat)).sum = A1 at *
  generalize (ps.map fun p => u p * (p.iteration : Rat) ^ 2).sum = A2 at *
  generalize (ps.map fun p => u p * (p.value : Rat)).sum = B0 at *
  generalize (ps.map fun p => u p * ((p.iteration : Rat) * p.value)).sum = B1 at *
  have hA := hU.ne'
  have hvn := hv0.ne'
  subst hm
  obtain ⟨b, hb⟩ : ∃ b, b = (B1 - m * B0) / (A0 * v) := ⟨_, rfl⟩
  obtain ⟨a, ha⟩ : ∃ a, a = B0 / A0 - b * m := ⟨_, rfl⟩
  have hb' : b * (A0 * v) = B1 - m * B0 := by rw [hb]; field_simp
  have ha' : a * A0 = B0 - b * m * A0 := by rw [ha]; field_simp
  have hfitab : fit = a + b * x := by
    have h1 : A0 * v * fit = A0 * v * (a + b * x) := by
      have h2 : v * (A0 * fit) = v * B0 + (x - m) * (B1 - m * B0) := by
        rw [hfit]; field_simp; ring
      linear_combination h2 - v * ha' - (x - m) * hb'
    exact mul_left_cancel₀ (mul_ne_zero hA hvn) h1
  have n0 : (ps.map fun p => u p * ((p.value : Rat) - (a + b * p.iteration))).sum = 0 := by
    rw [r0]; linear_combination -ha'
  have n1 : (ps.map fun p => u p * (((p.value : Rat) - (a + b * p.iteration)) * p.iteration)).sum = 0 := by
    rw [r1]; linear_combination (-m) * ha' - hb' + b * hv
  refine ⟨⟨a, b, hfitab, key n0 n1⟩, fun a1 b1 hbest => ?_⟩
  have h1 := hbest a b
  rw [sq a b a1 b1, n0, n1, quad] at h1
  have h2 : A0 * ((a - a1 + m * (b - b1)) ^ 2 + v * (b - b1) ^ 2) ≤ 0 := by linarith
  have h3 : (a - a1 + m * (b - b1)) ^ 2 + v * (b - b1) ^ 2 ≤ 0 := by
    by_contra hc
    exact absurd h2 (not_le.2 (mul_pos hU (not_le.1 hc)))
  have h4 : (b - b1) ^ 2 = 0 := by
    have := sq_nonneg (a - a1 + m * (b - b1))
    have h5 : 0 ≤ (b - b1) ^ 2 := sq_nonneg _
    by_contra hc
    have h6 : 0 < (b - b1) ^ 2 := lt_of_le_of_ne h5 (Ne.symm hc)
    have := mul_pos hv0 h6
    linarith
  have h5 : b1 = b := by have := pow_eq_zero_iff (n := 2) (by norm_num) |>.1 h4; linarith
  subst h5
  have h6 : (a - a1) ^ 2 = 0 := by
    have := sq_nonneg (a - a1)
    apply le_antisymm _ this
    simpa using h3
  have h7 : a1 = a := by have := pow_eq_zero_iff (n := 2) (by norm_num) |>.1 h6; linarith
  rw [h7]
  exact hfitab

/-- The weighted mean is the best constant. -/
theorem mean_best (u : Evidence → Rat) (ps : List Evidence) (hu : ∀ p ∈ ps, 0 ≤ u p) {c : Rat}
    (h : (ps.map u).sum * c = (ps.map fun p => u p * p.value).sum) (c' : Rat) :
    (ps.map fun p => u p * ((p.value : Rat) - (c + 0 * p.iteration)) ^ 2).sum ≤
      (ps.map fun p => u p * ((p.value : Rat) - (c' + 0 * p.iteration)) ^ 2).sum := by
  rw [moments_sq u ps c 0 c' 0, resid_moments, ← h]
  have := sum_sq_nonneg u ps hu fun p => (c - c') + (0 - 0) * p.iteration
  linarith

theorem zipWith_maps {α β γ δ : Type} (f : α → β → γ) (g : δ → α) (h : δ → β) (l : List δ) :
    List.zipWith f (l.map g) (l.map h) = l.map fun p => f (g p) (h p) := by
  induction l with
  | nil => rfl
  | cons a l ih => simp [ih]

theorem sum_div (l : List Evidence) (f : Evidence → Rat) (U : Rat) : (l.map fun p => f p / U).sum = (l.map f).sum / U := by
  induction l with
  | nil => simp
  | cons a l ih => simp only [List.map_cons, List.sum_cons, ih]; ring

/-- The computed value in terms of the weights before normalization. -/
theorem calculateYFit_eq (u : Evidence → Rat) (ps : List Evidence) {back : Evidence} (hb : ps.getLast? = some back) (hU : 0 < (ps.map u).sum) (R : Rat) :
    ∃ m v, (ps.map u).sum * m = (ps.map fun p => u p * p.iteration).sum ∧
      (ps.map u).sum * v = (ps.map fun p => u p * ((p.iteration : Rat) - m) ^ 2).sum ∧
      (1 / 10 ^ 6 * R * R < v → (ps.map u).sum * calculateYFit ps (ps.map fun p => u p / (ps.map u).sum) R =
        (ps.map fun p => u p * (1 + ((back.iteration : Rat) - m) / v * ((p.iteration : Rat) - m)) * p.value).sum) ∧
      (¬ 1 / 10 ^ 6 * R * R < v → (ps.map u).sum * calculateYFit ps (ps.map fun p => u p / (ps.map u).sum) R =
        (ps.map fun p => u p * p.value).sum) := by
  generalize hUe : (ps.map u).sum = U at *
  have hA := hU.ne'
  have scale : ∀ f : Evidence → Rat, U * (ps.map fun p => f p / U).sum = (ps.map f).sum := by
    intro f; rw [sum_div]; field_simp
  obtain ⟨m, hm⟩ : ∃ m, m = (ps.map fun p => u p / U * (p.iteration : Rat)).sum := ⟨_, rfl⟩
  obtain ⟨v, hv⟩ : ∃ v, v = (ps.map fun p => u p / U * ((p.iteration : Rat) - m) * ((p.iteration : Rat) - m)).sum := ⟨_, rfl⟩
  have hlast : ((ps.map fun p => (p.iteration : Rat)).map fun x => x - m).getLastD 0 = (back.iteration : Rat) - m := by
    rw [List.map_map, List.getLastD_eq_getLast?, List.getLast?_map, hb]
    rfl
  have hval : calculateYFit ps (ps.map fun p => u p / U) R = if v > 1 / 10 ^ 6 * R * R then
      (ps.map fun p => u p / U * (1 + ((back.iteration : Rat) - m) / v * ((p.iteration : Rat) - m)) * p.value).sum
      else (ps.map fun p => u p / U * p.value).sum := by
    unfold calculateYFit
    simp only [zipWith_maps, ← hm, hlast]
    simp only [List.map_map, zipWith_maps, Function.comp_def, ← hv]
    split_ifs
    · rw [zipWith_maps]
    · rw [zipWith_maps]
  refine ⟨m, v, ?_, ?_, fun h => ?_, fun h => ?_⟩
  · conv_lhs => rw [hm]
    conv_rhs => rw [← scale]
    congr 2
    exact List.map_congr_left fun p _ => by ring
  · conv_lhs => rw [hv]
    conv_rhs => rw [← scale]
    congr 2
    exact List.map_congr_left fun p _ => by ring
  · rw [hval, if_pos h]
    conv_rhs => rw [← scale]
    congr 2
    exact List.map_congr_left fun p _ => by ring
  · rw [hval, if_neg h]
    conv_rhs => rw [← scale]
    congr 2
    exact List.map_congr_left fun p _ => by ring

theorem weight_nonneg {first last x : Nat} (h1 : first ≤ x) (h2 : x ≤ last) (h3 : first < last) : 0 ≤ weight first last x := by
  unfold weight
  have a1 : (first : Rat) ≤ x := by exact_mod_cast h1
  have a2 : (x : Rat) ≤ last := by exact_mod_cast h2
  have a3 : (first : Rat) < last := by exact_mod_cast h3
  have d : (0 : Rat) < last - first := by linarith
  have r0 : 0 ≤ ((last : Rat) - x) / (last - first) := div_nonneg (by linarith) d.le
  have r1 : ((last : Rat) - x) / (last - first) ≤ 1 := by rw [div_le_one d]; linarith
  have r3 : (((last : Rat) - x) / (last - first)) ^ 3 ≤ 1 := pow_le_one₀ r0 r1
  exact pow_nonneg (by linarith) 3

theorem weight_last {first last : Nat} : weight first last last = 1 := by
  unfold weight
  rw [sub_self, zero_div]
  norm_num

theorem tricube_eq {first last x : Nat} (h2 : x ≤ last) (h3 : first < last) :
    tricube (iterationDist last x) (last - first) = weight first last x := by
  have : iterationDist last x = last - x := by unfold iterationDist; omega
  rw [this, tricube, weight, Nat.cast_sub h2, Nat.cast_sub h3.le]

theorem subSize_eq {a b : Nat} (h : b ≤ a) (ha : a < 2 ^ 64) : subSize a b = a - b := by
  unfold subSize; omega

theorem sum_ge_last {ps : List Evidence} {u : Evidence → Rat} (hu : ∀ p ∈ ps, 0 ≤ u p) {back : Evidence} (hb : ps.getLast? = some back) :
    u back ≤ (ps.map u).sum := by
  have hmem : back ∈ ps := List.mem_of_getLast? hb
  exact List.single_le_sum (fun x hx => by obtain ⟨p, hp, rfl⟩ := List.mem_map.1 hx; exact hu p hp) _ (List.mem_map.2 ⟨back, hmem, rfl⟩)

/-- The computed value of the last point in the general case. -/
theorem smoothLastPoint_eq {points before neighbors : List Evidence} {k : Nat} (hk : 2 ≤ k) (hp : points = before ++ neighbors)
    (hlen : neighbors.length = min k points.length) {front first back : Evidence} (hfront : points.head? = some front)
    (hfirst : neighbors.head? = some first) (hback : points.getLast? = some back)
    (hle : ∀ p ∈ points, p.iteration ≤ back.iteration) (hge : ∀ p ∈ neighbors, first.iteration ≤ p.iteration)
    (hfl : front.iteration ≤ back.iteration) (hlt : first.iteration < back.iteration) (hsize : back.iteration < 2 ^ 63) :
    neighbors.getLast? = some back ∧ (∀ p ∈ neighbors, 0 ≤ weight first.iteration back.iteration p.iteration) ∧
      0 < (neighbors.map fun p => weight first.iteration back.iteration p.iteration).sum ∧
      smoothLastPoint points k = lround (calculateYFit neighbors (neighbors.map fun p => weight first.iteration back.iteration p.iteration /
        (neighbors.map fun p => weight first.iteration back.iteration p.iteration).sum) ((back.iteration : Rat) - front.iteration)) := by
  have hne : neighbors ≠ [] := by rintro rfl; cases hfirst
  have hlast : neighbors.getLast? = some back := by
    rw [hp, List.getLast?_append_of_ne_nil _ hne] at hback
    exact hback
  have hsub : ∀ p ∈ neighbors, p ∈ points := fun p hpn => by rw [hp]; exact List.mem_append_right _ hpn
  have hnonneg : ∀ p ∈ neighbors, 0 ≤ weight first.iteration back.iteration p.iteration :=
    fun p hpn => weight_nonneg (hge p hpn) (hle p (hsub p hpn)) hlt
  have hsum := sum_ge_last (u := fun p => weight first.iteration back.iteration p.iteration) hnonneg hlast
  rw [weight_last] at hsum
  have hpos : 0 < (neighbors.map fun p => weight first.iteration back.iteration p.iteration).sum := by linarith
  refine ⟨hlast, hnonneg, hpos, ?_⟩
  have h1 : points.length ≠ 1 := by
    intro h1
    rw [h1] at hlen
    have hn1 : neighbors.length = 1 := by omega
    obtain ⟨q, rfl⟩ := List.length_eq_one_iff.1 hn1
    simp only [List.head?_cons, Option.some.injEq, List.getLast?_singleton] at hfirst hlast
    rw [← hfirst, hlast] at hlt
    exact absurd hlt (lt_irrefl _)
  have hdrop : points.drop (points.length - min k points.length) = neighbors := by
    rw [← hlen, hp, List.length_append, Nat.add_sub_cancel, List.drop_left]
  rw [smoothLastPoint, if_neg (by omega), hfront, hback]
  simp only [hdrop, hfirst, Option.getD_some, subSize_eq hlt.le (by omega : back.iteration < 2 ^ 64), subSize_eq hfl (by omega : back.iteration < 2 ^ 64)]
  rw [if_neg (by omega)]
  have hw : (neighbors.map fun p => if iterationDist back.iteration p.iteration ≤ back.iteration - first.iteration then
      tricube (iterationDist back.iteration p.iteration) (back.iteration - first.iteration) else 0) =
      neighbors.map fun p => weight first.iteration back.iteration p.iteration := by
    refine List.map_congr_left fun p hpn => ?_
    have a := hle p (hsub p hpn)
    have b := hge p hpn
    rw [if_pos (by unfold iterationDist; omega), tricube_eq a hlt]
  have hn : isNearAbs (neighbors.map fun p => weight first.iteration back.iteration p.iteration).sum 0 (1 / 10 ^ 12) = false := by
    simp only [isNearAbs, decide_eq_false_iff_not, not_le, sub_zero]
    rw [abs_of_pos hpos]
    have : (1 : Rat) / 10 ^ 12 < 1 := by norm_num
    linarith
  unfold calculateWeights
  simp only [hw, hn, Bool.false_eq_true, if_false, if_true, List.map_map]
  rw [Nat.cast_sub hfl]
  rfl

theorem lround_nearest {q : Rat} {r : Int} (h : lround q = .ok r) : Nearest q r := by
  have hr : r = roundHalfAway q := by
    unfold lround at h
    dsimp only at h
    split_ifs at h with h1
    exact (Outcome.ok.inj h).symm
  have hhalf : |q - (r : Rat)| ≤ 1 / 2 := by
    rw [hr, roundHalfAway]
    split_ifs with h0
    · have a := Int.floor_le (q + 1 / 2)
      have b := Int.lt_floor_add_one (q + 1 / 2)
      rw [abs_le]; constructor <;> linarith
    · have a := Int.floor_le (-q + 1 / 2)
      have b := Int.lt_floor_add_one (-q + 1 / 2)
      push_cast
      rw [abs_le]; constructor <;> linarith
  intro s
  by_cases hs : s = r
  · rw [hs]
  · have h1 : (1 : Rat) ≤ |(r : Rat) - (s : Rat)| := by
      have : (1 : Int) ≤ |r - s| := Int.one_le_abs (by omega)
      exact_mod_cast this
    have h2 : |(r : Rat) - s| ≤ |q - r| + |q - s| := by
      have := abs_sub_le (r : Rat) q s
      rwa [abs_sub_comm (r : Rat) q] at this
    linarith

theorem lround_ok {q : Rat} (h : |q| ≤ 2 ^ 63 - 1) : ∃ r, lround q = .ok r := by
  refine ⟨_, if_pos ?_⟩
  rw [abs_le] at h
  unfold roundHalfAway
  split_ifs with h0
  · have a := Int.floor_le (q + 1 / 2)
    have b : (0 : Int) ≤ ⌊q + 1 / 2⌋ := Int.floor_nonneg.2 (by linarith)
    refine ⟨by omega, ?_⟩
    have : (⌊q + 1 / 2⌋ : Rat) < 2 ^ 63 := by linarith [h.2]
    exact_mod_cast this
  · have a := Int.floor_le (-q + 1 / 2)
    have b : (0 : Int) ≤ ⌊-q + 1 / 2⌋ := Int.floor_nonneg.2 (by linarith)
    refine ⟨?_, by omega⟩
    have : (⌊-q + 1 / 2⌋ : Rat) < 2 ^ 63 := by linarith [h.1]
    have h2 : ⌊-q + 1 / 2⌋ < 2 ^ 63 := by exact_mod_cast this
    omega

theorem lround_int {v : Int} (h : -2 ^ 63 ≤ v ∧ v < 2 ^ 63) : lround (v : Rat) = .ok v := by
  have : roundHalfAway (v : Rat) = v := by
    have e : ⌊(1 / 2 : Rat)⌋ = 0 := by norm_num
    unfold roundHalfAway
    split_ifs
    · rw [Int.floor_intCast_add, e]; omega
    · rw [← Int.cast_neg, Int.floor_intCast_add, e]; omega
  unfold lround
  rw [this]
  exact if_pos h

end Verif
