import Verif.Spec.RotationalMotion
import Verif.Props.C93
import Mathlib.Algebra.Order.Archimedean.Basic
import Mathlib.Tactic.Linarith
import Mathlib.Tactic.FieldSimp
import Mathlib.Tactic.Positivity
/-! Lemmas for C94. -/
namespace Verif
open Spec
variable {K : Type} [Field K] [LinearOrder K] [IsStrictOrderedRing K]

theorem unit_inner {q : Q4 K} : IsUnit4 q ↔ q.inner q = 1 := by
  unfold IsUnit4 Q4.inner
  constructor <;> intro h <;> linear_combination h

theorem inner_self_nonneg (q : Q4 K) : 0 ≤ q.inner q := by
  unfold Q4.inner
  linarith [mul_self_nonneg q.w, mul_self_nonneg q.x, mul_self_nonneg q.y, mul_self_nonneg q.z]

/-- Cauchy-Schwarz. -/
theorem inner_sq_le (a b : Q4 K) : (a.inner b) ^ 2 ≤ a.inner a * b.inner b := by
  unfold Q4.inner
  nlinarith [sq_nonneg (a.w * b.x - a.x * b.w), sq_nonneg (a.w * b.y - a.y * b.w), sq_nonneg (a.w * b.z - a.z * b.w),
    sq_nonneg (a.x * b.y - a.y * b.x), sq_nonneg (a.x * b.z - a.z * b.x), sq_nonneg (a.y * b.z - a.z * b.y)]

theorem derivative_eq {om : V3 K} {h : Q4 K} (hh : IsUnit4 h) : RotInt.derivative om h = (vecQMul om h).scale (1 / 2) := by
  unfold IsUnit4 at hh
  have key : qMulVec h (rotatePositionBackwards h om) = vecQMul om h := by
    apply q4_ext <;> simp only [qMulVec, vecQMul, qMul, rotatePositionBackwards, rotatePosition, Q4.matrix]
    · linear_combination (-om.x * h.x - om.y * h.y - om.z * h.z) * hh
    · linear_combination (om.x * h.w + om.y * h.z - om.z * h.y) * hh
    · linear_combination (-om.x * h.z + om.y * h.w + om.z * h.x) * hh
    · linear_combination (om.x * h.y - om.y * h.x + om.z * h.w) * hh
  unfold RotInt.derivative
  rw [key]

variable {c : RotInt K}

theorem normalize_ok (hs : IsSqrt c.sqrt) {a : Q4 K} (ha : 0 < a.inner a) :
    ∃ l, 0 < l ∧ l ^ 2 = a.inner a ∧ c.normalize a = .ok (a.scale (1 / l)) := by
  obtain ⟨h1, h2⟩ := hs (a.inner a) ha.le
  have h3 : c.sqrt (a.inner a) ≠ 0 := by
    intro h; rw [h] at h2; norm_num at h2; rw [← h2] at ha; exact lt_irrefl _ ha
  exact ⟨_, lt_of_le_of_ne h1 (Ne.symm h3), h2, if_neg h3⟩

theorem scale_unit {a : Q4 K} {l : K} (hl : 0 < l) (h : l ^ 2 = a.inner a) : IsUnit4 (a.scale (1 / l)) := by
  rw [unit_inner]
  have h1 : (a.scale (1 / l)).inner (a.scale (1 / l)) = a.inner a / l ^ 2 := by
    unfold Q4.scale Q4.inner
    field_simp
  rw [h1, ← h]
  exact div_self (by positivity)

theorem normalize_unit (hs : IsSqrt c.sqrt) {a b : Q4 K} (h : c.normalize a = .ok b) : IsUnit4 b := by
  have h0 := hs (a.inner a) (inner_self_nonneg a)
  unfold RotInt.normalize at h
  split at h
  · cases h
  · rename_i hne
    cases h
    exact scale_unit (lt_of_le_of_ne h0.1 (Ne.symm hne)) h0.2

/-- The quaternion before it is normalized. -/
def halfOf (c : RotInt K) (q : Q4 K) (om : V3 K) (h : Q4 K) : Q4 K := q + (vecQMul om h).scale (c.dt / 4)

theorem half_eq {om : V3 K} {q h : Q4 K} (hh : IsUnit4 h) : q + (RotInt.derivative om h).scale (1 / 2 * c.dt) = halfOf c q om h := by
  rw [derivative_eq hh]
  unfold halfOf
  congr 1
  apply q4_ext <;> simp only [Q4.scale] <;> ring

/-- The loop, after one more iteration. -/
theorem iterate_step {q : Q4 K} {om : V3 K} {fuel : Nat} {h old d : Q4 K} (hh : IsUnit4 h)
    (hc : ¬ (h - old).inner (h - old) ≤ rotTol * rotTol) :
    c.iterate q om (fuel + 1) h old d = (c.normalize (halfOf c q om h)).bind fun h' => c.iterate q om fuel h' h (RotInt.derivative om h) := by
  rw [RotInt.iterate, if_neg hc]
  simp only [half_eq hh]

theorem iterate_done {q : Q4 K} {om : V3 K} {fuel : Nat} {h old d : Q4 K} (hc : (h - old).inner (h - old) ≤ rotTol * rotTol) :
    c.iterate q om fuel h old d = .ok d := by
  unfold RotInt.iterate
  rw [if_pos hc]

theorem iterate_zero {q : Q4 K} {om : V3 K} {h old d : Q4 K} (hc : ¬ (h - old).inner (h - old) ≤ rotTol * rotTol) :
    c.iterate q om 0 h old d = .diverges := by
  unfold RotInt.iterate
  rw [if_neg hc]

/-- The derivative that comes out belongs to a quaternion that satisfies what the first one satisfies, if this is preserved. -/
theorem iterate_inv (hs : IsSqrt c.sqrt) {q : Q4 K} {om : V3 K} (P : Q4 K → Prop) (hP : ∀ h, IsUnit4 h → P h → ∀ h', c.normalize (halfOf c q om h) = .ok h' → P h')
    {fuel : Nat} {h old d d' : Q4 K} (hh : IsUnit4 h) (hp : P h) (hd : (h - old).inner (h - old) ≤ rotTol * rotTol → ∃ g, IsUnit4 g ∧ P g ∧ d = RotInt.derivative om g)
    (he : c.iterate q om fuel h old d = .ok d') : ∃ g, IsUnit4 g ∧ P g ∧ d' = RotInt.derivative om g := by
  induction fuel generalizing h old d with
  | zero =>
    by_cases hc : (h - old).inner (h - old) ≤ rotTol * rotTol
    · rw [iterate_done hc] at he; cases he; exact hd hc
    · rw [iterate_zero hc] at he; cases he
  | succ fuel ih =>
    by_cases hc : (h - old).inner (h - old) ≤ rotTol * rotTol
    · rw [iterate_done hc] at he; cases he; exact hd hc
    · rw [iterate_step hh hc] at he
      cases hn : c.normalize (halfOf c q om h) with
      | ok h' =>
        rw [hn] at he
        exact ih (normalize_unit hs hn) (hP h hh hp h' hn) (fun _ => ⟨h, hh, hp, rfl⟩) he
      | throws => rw [hn] at he; cases he
      | ub => rw [hn] at he; cases he
      | diverges => rw [hn] at he; cases he

theorem tol_pos : (0 : K) < rotTol := by unfold rotTol; norm_num

/-- The first test of the loop fails. -/
theorem first_apart (h : Q4 K) : ¬ (h - { h with w := h.w + 2 * rotTol }).inner (h - { h with w := h.w + 2 * rotTol }) ≤ rotTol * rotTol := by
  have ht := tol_pos (K := K)
  have : (h - { h with w := h.w + 2 * rotTol }).inner (h - { h with w := h.w + 2 * rotTol }) = 4 * (rotTol * rotTol) := by
    show (h.w - (h.w + 2 * rotTol)) * (h.w - (h.w + 2 * rotTol)) + (h.x - h.x) * (h.x - h.x) + (h.y - h.y) * (h.y - h.y) + (h.z - h.z) * (h.z - h.z) = _
    ring
  rw [this]
  nlinarith [mul_pos ht ht]

/-! ### Contraction -/

theorem vecQMul_inner (om : V3 K) (h : Q4 K) : (vecQMul om h).inner (vecQMul om h) = normSq om * h.inner h := by
  unfold vecQMul qMul Q4.inner normSq
  ring

theorem half_inner {q h : Q4 K} {om : V3 K} (hq : IsUnit4 q) (hh : IsUnit4 h) : (halfOf c q om h).inner (halfOf c q om h) =
    1 + 2 * ((c.dt / 4) * q.inner (vecQMul om h)) + (c.dt / 4) ^ 2 * normSq om := by
  have h1 := vecQMul_inner om h
  rw [unit_inner] at hq hh
  rw [hh, mul_one] at h1
  have : (halfOf c q om h).inner (halfOf c q om h) =
      q.inner q + 2 * ((c.dt / 4) * q.inner (vecQMul om h)) + (c.dt / 4) ^ 2 * (vecQMul om h).inner (vecQMul om h) := by
    show (q.w + _ * _) * (q.w + _ * _) + (q.x + _ * _) * (q.x + _ * _) + (q.y + _ * _) * (q.y + _ * _) + (q.z + _ * _) * (q.z + _ * _) = _
    unfold Q4.inner
    ring
  rw [this, hq, h1]

theorem half_bounds {q h : Q4 K} {om : V3 K} (hq : IsUnit4 q) (hh : IsUnit4 h) {s : K} (hs0 : 0 ≤ s) (hs : s ^ 2 = (c.dt / 4) ^ 2 * normSq om) :
    (1 - s) ^ 2 ≤ (halfOf c q om h).inner (halfOf c q om h) := by
  have h1 := inner_sq_le q (vecQMul om h)
  rw [vecQMul_inner, unit_inner.1 hq, unit_inner.1 hh, mul_one, one_mul] at h1
  rw [half_inner hq hh, ← hs]
  have h2 : ((c.dt / 4) * q.inner (vecQMul om h)) ^ 2 ≤ s ^ 2 := by
    rw [hs, mul_pow]
    exact mul_le_mul_of_nonneg_left h1 (sq_nonneg _)
  have h3 := (abs_le_of_sq_le_sq' h2 hs0).1
  nlinarith

theorem half_diff {q h g : Q4 K} {om : V3 K} : (halfOf c q om h - halfOf c q om g).inner (halfOf c q om h - halfOf c q om g) =
    (c.dt / 4) ^ 2 * normSq om * (h - g).inner (h - g) := by
  have : halfOf c q om h - halfOf c q om g = (vecQMul om (h - g)).scale (c.dt / 4) := by
    apply q4_ext
    · show q.w + _ * _ - (q.w + _ * _) = _
      show _ = (0 * (h.w - g.w) - om.x * (h.x - g.x) - om.y * (h.y - g.y) - om.z * (h.z - g.z)) * _
      simp only [vecQMul, qMul]; ring
    · show q.x + _ * _ - (q.x + _ * _) = _
      show _ = (0 * (h.x - g.x) + om.x * (h.w - g.w) + om.y * (h.z - g.z) - om.z * (h.y - g.y)) * _
      simp only [vecQMul, qMul]; ring
    · show q.y + _ * _ - (q.y + _ * _) = _
      show _ = (0 * (h.y - g.y) - om.x * (h.z - g.z) + om.y * (h.w - g.w) + om.z * (h.x - g.x)) * _
      simp only [vecQMul, qMul]; ring
    · show q.z + _ * _ - (q.z + _ * _) = _
      show _ = (0 * (h.z - g.z) + om.x * (h.y - g.y) - om.y * (h.x - g.x) + om.z * (h.w - g.w)) * _
      simp only [vecQMul, qMul]; ring
  rw [this]
  have h2 := vecQMul_inner om (h - g)
  have h3 : ∀ (a : Q4 K) (t : K), (a.scale t).inner (a.scale t) = t ^ 2 * a.inner a := by
    intro a t; unfold Q4.scale Q4.inner; ring
  rw [h3, h2]
  ring

/-- Normalizing vectors brings them closer, relative to their lengths. -/
theorem normalized_closer {u v : Q4 K} {a b : K} (ha : 0 < a) (hb : 0 < b) (hu : a ^ 2 = u.inner u) (hv : b ^ 2 = v.inner v) :
    (u.scale (1 / a) - v.scale (1 / b)).inner (u.scale (1 / a) - v.scale (1 / b)) * (a * b) ≤ (u - v).inner (u - v) := by
  have h1 : (u - v).inner (u - v) = u.inner u - 2 * u.inner v + v.inner v := by
    show (u.w - v.w) * (u.w - v.w) + (u.x - v.x) * (u.x - v.x) + (u.y - v.y) * (u.y - v.y) + (u.z - v.z) * (u.z - v.z) = _
    unfold Q4.inner; ring
  have h2 : (u.scale (1 / a) - v.scale (1 / b)).inner (u.scale (1 / a) - v.scale (1 / b)) =
      u.inner u / a ^ 2 - 2 * (u.inner v / (a * b)) + v.inner v / b ^ 2 := by
    show (u.w * (1 / a) - v.w * (1 / b)) * (u.w * (1 / a) - v.w * (1 / b)) + (u.x * (1 / a) - v.x * (1 / b)) * (u.x * (1 / a) - v.x * (1 / b)) +
      (u.y * (1 / a) - v.y * (1 / b)) * (u.y * (1 / a) - v.y * (1 / b)) + (u.z * (1 / a) - v.z * (1 / b)) * (u.z * (1 / a) - v.z * (1 / b)) = _
    unfold Q4.inner
    field_simp
    ring
  rw [h1, h2, ← hu, ← hv, div_self (by positivity), div_self (by positivity)]
  have h3 : (1 - 2 * (u.inner v / (a * b)) + 1) * (a * b) = 2 * (a * b) - 2 * u.inner v := by
    field_simp
    ring
  rw [h3]
  nlinarith [sq_nonneg (a - b)]

/-- One iteration of the loop brings quaternions closer. -/
theorem contraction (hsq : IsSqrt c.sqrt) {q h g h' g' : Q4 K} {om : V3 K} (hq : IsUnit4 q) (hh : IsUnit4 h) (hg : IsUnit4 g) {s : K} (hs0 : 0 ≤ s)
    (hs : s ^ 2 = (c.dt / 4) ^ 2 * normSq om) (hs1 : s < 1 / 2) (eh : c.normalize (halfOf c q om h) = .ok h') (eg : c.normalize (halfOf c q om g) = .ok g') :
    (h' - g').inner (h' - g') ≤ (s / (1 - s)) ^ 2 * (h - g).inner (h - g) := by
  have hp : 0 < 1 - s := by linarith
  have bh := half_bounds (c := c) (om := om) hq hh hs0 hs
  have bg := half_bounds (c := c) (om := om) hq hg hs0 hs
  obtain ⟨a, ha, ha2, hae⟩ := normalize_ok (c := c) hsq (lt_of_lt_of_le (by positivity) bh)
  obtain ⟨b, hb, hb2, hbe⟩ := normalize_ok (c := c) hsq (lt_of_lt_of_le (by positivity) bg)
  rw [hae] at eh; rw [hbe] at eg
  cases eh; cases eg
  have h1 := normalized_closer ha hb ha2 hb2
  rw [half_diff, ← hs] at h1
  have ha3 : 1 - s ≤ a := by rw [← ha2] at bh; exact (pow_le_pow_iff_left₀ hp.le ha.le two_ne_zero).1 bh
  have hb3 : 1 - s ≤ b := by rw [← hb2] at bg; exact (pow_le_pow_iff_left₀ hp.le hb.le two_ne_zero).1 bg
  have hab : (1 - s) ^ 2 ≤ a * b := by nlinarith
  rw [div_pow, div_mul_eq_mul_div, le_div_iff₀ (by positivity)]
  exact le_trans (mul_le_mul_of_nonneg_left hab (inner_self_nonneg _)) h1

/-- The loop ends if it contracts. -/
theorem iterate_ends (hsq : IsSqrt c.sqrt) {q : Q4 K} {om : V3 K} (hq : IsUnit4 q) {s : K} (hs0 : 0 ≤ s) (hs : s ^ 2 = (c.dt / 4) ^ 2 * normSq om) (hs1 : s < 1 / 2)
    (n : Nat) {h old d : Q4 K} (hh : IsUnit4 h) (ho : IsUnit4 old) (hho : c.normalize (halfOf c q om old) = .ok h)
    (hn : ((s / (1 - s)) ^ 2) ^ n * (h - old).inner (h - old) ≤ rotTol * rotTol) {fuel : Nat} (hf : n ≤ fuel) : ∃ d', c.iterate q om fuel h old d = .ok d' := by
  induction n generalizing h old d fuel with
  | zero =>
    rw [pow_zero, one_mul] at hn
    exact ⟨d, iterate_done hn⟩
  | succ n ih =>
    by_cases hc : (h - old).inner (h - old) ≤ rotTol * rotTol
    · exact ⟨d, iterate_done hc⟩
    obtain ⟨fuel, rfl⟩ : ∃ k, fuel = k + 1 := ⟨fuel - 1, by omega⟩
    rw [iterate_step hh hc]
    have hp : 0 < 1 - s := by linarith
    obtain ⟨l, hl, hl2, hle⟩ := normalize_ok (c := c) hsq (lt_of_lt_of_le (by positivity) (half_bounds (c := c) (om := om) hq hh hs0 hs))
    rw [hle]
    refine ih (scale_unit hl hl2) hh hle ?_ (by omega)
    have h1 := contraction hsq hq hh ho hs0 hs hs1 hle hho
    rw [pow_succ, mul_assoc] at hn
    exact le_trans (mul_le_mul_of_nonneg_left h1 (by positivity)) hn

theorem unit_diff_le {a b : Q4 K} (ha : IsUnit4 a) (hb : IsUnit4 b) : (a - b).inner (a - b) ≤ 4 := by
  have h := inner_sq_le a b
  rw [unit_inner] at ha hb
  rw [ha, hb, one_mul] at h
  have h2 : (a - b).inner (a - b) = a.inner a - 2 * a.inner b + b.inner b := by
    show (a.w - b.w) * (a.w - b.w) + (a.x - b.x) * (a.x - b.x) + (a.y - b.y) * (a.y - b.y) + (a.z - b.z) * (a.z - b.z) = _
    unfold Q4.inner; ring
  rw [h2, ha, hb]
  nlinarith [(abs_le_of_sq_le_sq' (by rw [one_pow]; exact h : (a.inner b) ^ 2 ≤ (1 : K) ^ 2) zero_le_one).1]

/-- The first guess can be normalized. -/
theorem first_half {q : Q4 K} (hq : IsUnit4 q) (v : V3 K) (t : K) : 1 ≤ (q + ((qMulVec q v).scale (1 / 2)).scale t).inner (q + ((qMulVec q v).scale (1 / 2)).scale t) := by
  have : (q + ((qMulVec q v).scale (1 / 2)).scale t).inner (q + ((qMulVec q v).scale (1 / 2)).scale t) = q.inner q * (1 + (t / 2) ^ 2 * normSq v) := by
    show (q.w + (qMulVec q v).w * (1 / 2) * t) * (q.w + (qMulVec q v).w * (1 / 2) * t) + (q.x + (qMulVec q v).x * (1 / 2) * t) * (q.x + (qMulVec q v).x * (1 / 2) * t) +
      (q.y + (qMulVec q v).y * (1 / 2) * t) * (q.y + (qMulVec q v).y * (1 / 2) * t) + (q.z + (qMulVec q v).z * (1 / 2) * t) * (q.z + (qMulVec q v).z * (1 / 2) * t) = _
    unfold qMulVec qMul Q4.inner normSq
    ring
  rw [this, unit_inner.1 hq, one_mul]
  have : 0 ≤ normSq v := by unfold normSq; positivity
  have : 0 ≤ (t / 2) ^ 2 * normSq v := by positivity
  linarith

theorem first_ok (hsq : IsSqrt c.sqrt) {m : Rotor K} (hq : IsUnit4 m.q) : ∃ h, IsUnit4 h ∧ c.normalize (m.q + (c.firstDerivative m).scale (1 / 2 * c.dt)) = .ok h := by
  have := first_half hq ((c.inertia * rotatePositionBackwards m.q m.angVel + (rotatePositionBackwards m.q m.torque -
      (rotatePositionBackwards m.q m.angVel).cross (c.inertia * rotatePositionBackwards m.q m.angVel)).scale (1 / 2 * c.dt)).quot c.inertia) (1 / 2 * c.dt)
  obtain ⟨l, hl, hl2, hle⟩ := normalize_ok (c := c) hsq (lt_of_lt_of_le zero_lt_one this)
  exact ⟨_, scale_unit hl hl2, hle⟩

/-- The full step. -/
theorem full_eq {om : V3 K} {q h : Q4 K} (hh : IsUnit4 h) : q + (RotInt.derivative om h).scale c.dt = q + (vecQMul om h).scale (c.dt / 2) := by
  rw [derivative_eq hh]
  congr 1
  apply q4_ext <;> simp only [Q4.scale] <;> ring

theorem full_pos {q h : Q4 K} {om : V3 K} (hq : IsUnit4 q) (hh : IsUnit4 h) {s : K} (hs0 : 0 ≤ s) (hs : s ^ 2 = (c.dt / 4) ^ 2 * normSq om) (hs1 : s < 1 / 2) :
    0 < (q + (vecQMul om h).scale (c.dt / 2)).inner (q + (vecQMul om h).scale (c.dt / 2)) := by
  have h1 := half_bounds (c := { c with dt := 2 * c.dt }) (om := om) hq hh (s := 2 * s) (by linarith)
    (by show (2 * s) ^ 2 = (2 * c.dt / 4) ^ 2 * normSq om; rw [mul_pow, hs]; ring)
  unfold halfOf at h1
  dsimp only at h1
  rw [show 2 * c.dt / 4 = c.dt / 2 by ring] at h1
  refine lt_of_lt_of_le ?_ h1
  have : 0 < 1 - 2 * s := by linarith
  positivity

/-- What an update that ends computes. -/
theorem rotUpdate_spec (hsq : IsSqrt c.sqrt) {m m' : Rotor K} (hq : IsUnit4 m.q) {fuel : Nat} (P : Q4 K → Prop)
    (hP0 : ∀ h, c.normalize (m.q + (c.firstDerivative m).scale (1 / 2 * c.dt)) = .ok h → P h)
    (hP : ∀ h, IsUnit4 h → P h → ∀ h', c.normalize (halfOf c m.q (c.halfAngVel m) h) = .ok h' → P h') (he : c.updateQuaternion fuel m = .ok m') :
    ∃ h, IsUnit4 h ∧ P h ∧ c.normalize (m.q + (vecQMul (c.halfAngVel m) h).scale (c.dt / 2)) = .ok m'.q ∧ m'.angVel = c.halfAngVel m ∧
      m'.torque = c.globalTorque m'.q := by
  obtain ⟨h0, hu0, e0⟩ := first_ok hsq hq
  unfold RotInt.updateQuaternion at he
  dsimp only at he
  rw [e0] at he
  dsimp only [Outcome.bind] at he
  cases hi : c.iterate m.q (c.halfAngVel m) fuel h0 { h0 with w := h0.w + 2 * rotTol } (c.firstDerivative m) with
  | ok d =>
    rw [hi] at he
    dsimp only at he
    obtain ⟨g, hg, hpg, rfl⟩ := iterate_inv hsq P hP hu0 (hP0 h0 e0) (fun h => absurd h (first_apart h0)) hi
    rw [full_eq hg] at he
    cases hn : c.normalize (m.q + (vecQMul (c.halfAngVel m) g).scale (c.dt / 2)) with
    | ok qf =>
      rw [hn] at he
      cases he
      exact ⟨g, hg, hpg, hn, rfl, rfl⟩
    | throws => rw [hn] at he; cases he
    | ub => rw [hn] at he; cases he
    | diverges => rw [hn] at he; cases he
  | throws => rw [hi] at he; cases he
  | ub => rw [hi] at he; cases he
  | diverges => rw [hi] at he; cases he

/-- If the molecule turns too fast, consecutive quaternions stay apart. -/
theorem stays_apart (hsq : IsSqrt c.sqrt) {q h : Q4 K} {om : V3 K} (hq : IsUnit4 q) (hh : IsUnit4 h) (hfast : 17 ≤ c.dt ^ 2 * normSq om) :
    ∃ h', IsUnit4 h' ∧ c.normalize (halfOf c q om h) = .ok h' ∧ ¬ (h' - h).inner (h' - h) ≤ rotTol * rotTol := by
  obtain ⟨hs0, hs⟩ := hsq ((c.dt / 4) ^ 2 * normSq om) (mul_nonneg (sq_nonneg _) (by unfold normSq; positivity))
  set s := c.sqrt ((c.dt / 4) ^ 2 * normSq om) with hsd
  have hs2 : 17 / 16 ≤ s ^ 2 := by rw [hs]; linarith
  have hs1 : 1 < s := by nlinarith
  have hpos : 0 < (1 - s) ^ 2 := by
    have : 0 < s - 1 := by linarith
    nlinarith
  obtain ⟨l, hl, hl2, hle⟩ := normalize_ok (c := c) hsq (lt_of_lt_of_le hpos (half_bounds (c := c) (om := om) hq hh hs0 hs))
  refine ⟨_, scale_unit hl hl2, hle, fun hc => ?_⟩
  set e := (halfOf c q om h).scale (1 / l) - h with hed
  -- `q - l e = l h - (dt/4) om h`
  have key : (q - e.scale l).inner (q - e.scale l) = l ^ 2 + s ^ 2 := by
    have h1 : q - e.scale l = h.scale l - (vecQMul om h).scale (c.dt / 4) := by
      have hll : ∀ x : K, x * (1 / l) * l = x := fun x => by field_simp
      apply q4_ext
      · show q.w - ((q.w + _) * (1 / l) - h.w) * l = h.w * l - _
        rw [sub_mul, hll]; simp only [Q4.scale]; ring
      · show q.x - ((q.x + _) * (1 / l) - h.x) * l = h.x * l - _
        rw [sub_mul, hll]; simp only [Q4.scale]; ring
      · show q.y - ((q.y + _) * (1 / l) - h.y) * l = h.y * l - _
        rw [sub_mul, hll]; simp only [Q4.scale]; ring
      · show q.z - ((q.z + _) * (1 / l) - h.z) * l = h.z * l - _
        rw [sub_mul, hll]; simp only [Q4.scale]; ring
    have h2 : (h.scale l - (vecQMul om h).scale (c.dt / 4)).inner (h.scale l - (vecQMul om h).scale (c.dt / 4)) =
        h.inner h * (l ^ 2 + (c.dt / 4) ^ 2 * normSq om) := by
      show (h.w * l - (vecQMul om h).w * (c.dt / 4)) * (h.w * l - (vecQMul om h).w * (c.dt / 4)) +
        (h.x * l - (vecQMul om h).x * (c.dt / 4)) * (h.x * l - (vecQMul om h).x * (c.dt / 4)) +
        (h.y * l - (vecQMul om h).y * (c.dt / 4)) * (h.y * l - (vecQMul om h).y * (c.dt / 4)) +
        (h.z * l - (vecQMul om h).z * (c.dt / 4)) * (h.z * l - (vecQMul om h).z * (c.dt / 4)) = _
      unfold vecQMul qMul Q4.inner normSq
      ring
    rw [h1, h2, unit_inner.1 hh, one_mul, hs]
  have h3 : (q - e.scale l).inner (q - e.scale l) = q.inner q - 2 * l * q.inner e + l ^ 2 * e.inner e := by
    show (q.w - e.w * l) * (q.w - e.w * l) + (q.x - e.x * l) * (q.x - e.x * l) + (q.y - e.y * l) * (q.y - e.y * l) + (q.z - e.z * l) * (q.z - e.z * l) = _
    unfold Q4.inner; ring
  rw [h3, unit_inner.1 hq] at key
  have h4 := inner_sq_le q e
  rw [unit_inner.1 hq, one_mul] at h4
  have ht := tol_pos (K := K)
  have h5 : -rotTol ≤ q.inner e := (abs_le_of_sq_le_sq' (by rw [sq rotTol]; exact le_trans h4 hc) ht.le).1
  have ht2 : (rotTol : K) ≤ 1 / 100 := by unfold rotTol; norm_num
  have h6 : (rotTol : K) * rotTol ≤ 1 / 10000 := by nlinarith
  have h7 : l ^ 2 * e.inner e ≤ l ^ 2 * (1 / 10000) := mul_le_mul_of_nonneg_left (le_trans hc h6) (sq_nonneg _)
  have h8 : -(2 * l * q.inner e) ≤ 2 * l * (1 / 100) := by nlinarith
  nlinarith [sq_nonneg (l - 1 / 50)]

end Verif
