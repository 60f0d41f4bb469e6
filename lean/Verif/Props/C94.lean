import Verif.Lemmas.RotationalIntegrator
import Mathlib.Analysis.Real.Sqrt
/-!
# C94 — rotational time integration of multi-site molecules

Molecules stay rigid: the quaternion has length one after every number of steps. A step ends and has finite results. Angular momentum changes by exactly the torque
times the time (velocity Verlet), so it is conserved without torque; a free molecule rotates about the axis of its angular velocity.

Partial: a step is proved to end if the molecule turns by less than two radians per time step; from about four radians on it never ends (`C94_violated_hangs`).
The angular momentum is right for equal moments of inertia; if they differ, not even the angular momentum of a free molecule is kept
(`C94_violated_angular_momentum`): the gyroscopic term is missing. With `pauseSimulationDuringTuning` the torques of all iterations of a tuning phase
pile up (`C94_violated_pause`).
-/
namespace Verif
open Spec
variable {K : Type} [Field K] [LinearOrder K] [IsStrictOrderedRing K] {c : RotInt K}

theorem update_unit (hsq : IsSqrt c.sqrt) {fuel : Nat} {m m' : Rotor K} (hq : IsUnit4 m.q) (he : c.updateQuaternion fuel m = .ok m') : IsUnit4 m'.q := by
  obtain ⟨h, -, -, h1, -, -⟩ := rotUpdate_spec hsq hq (fun _ => True) (fun _ _ => trivial) (fun _ _ _ _ _ => trivial) he
  exact normalize_unit hsq h1

theorem iteration_ok {fuel : Nat} {t : V3 K} {m m' : Rotor K} (he : c.iteration fuel t m = .ok m') :
    ∃ m1, c.updateQuaternion fuel m = .ok m1 ∧ m' = c.updateAngularVelocity (m1.addTorque t) := by
  unfold RotInt.iteration at he
  cases h : c.updateQuaternion fuel m with
  | ok m1 => rw [h] at he; cases he; exact ⟨m1, rfl, rfl⟩
  | throws => rw [h] at he; cases he
  | ub => rw [h] at he; cases he
  | diverges => rw [h] at he; cases he

theorem iteration_unit (hsq : IsSqrt c.sqrt) {fuel : Nat} {t : V3 K} {m m' : Rotor K} (hq : IsUnit4 m.q) (he : c.iteration fuel t m = .ok m') : IsUnit4 m'.q := by
  obtain ⟨m1, h1, rfl⟩ := iteration_ok he
  have := update_unit hsq hq h1
  exact this

theorem run_cons_ok {fuel : Nat} {t : V3 K} {ts : List (V3 K)} {m m' : Rotor K} (he : c.run fuel (t :: ts) m = .ok m') :
    ∃ m1, c.iteration fuel t m = .ok m1 ∧ c.run fuel ts m1 = .ok m' := by
  unfold RotInt.run at he
  cases h : c.iteration fuel t m with
  | ok m1 => rw [h] at he; exact ⟨m1, rfl, he⟩
  | throws => rw [h] at he; cases he
  | ub => rw [h] at he; cases he
  | diverges => rw [h] at he; cases he

/-- Whatever the torques, after any number of steps the quaternion has length one, so the distances between the sites are those of the type. -/
theorem C94_rigid (hsq : IsSqrt c.sqrt) (fuel : Nat) (torques : List (V3 K)) {m m' : Rotor K} (hq : IsUnit4 m.q) (he : c.run fuel torques m = .ok m') :
    IsUnit4 m'.q ∧ ∀ a b, normSq (rotatePosition m'.q a - rotatePosition m'.q b) = normSq (a - b) := by
  have : IsUnit4 m'.q := by
    induction torques generalizing m with
    | nil => cases he; exact hq
    | cons t ts ih =>
      obtain ⟨m1, h1, h2⟩ := run_cons_ok he
      exact ih (iteration_unit hsq hq h1) h2
  exact ⟨this, C93_rigid this⟩

/-- If the molecule turns by less than two radians in a time step, the step ends, and with finite values. -/
theorem C94_step_ends_partial [Archimedean K] (hsq : IsSqrt c.sqrt) {m : Rotor K} (hq : IsUnit4 m.q)
    (hslow : c.dt ^ 2 * normSq (c.halfAngVel m) < 4) : StepEnds c m := by
  obtain ⟨hs0, hs⟩ := hsq ((c.dt / 4) ^ 2 * normSq (c.halfAngVel m)) (mul_nonneg (sq_nonneg _) (by unfold normSq; positivity))
  set s := c.sqrt ((c.dt / 4) ^ 2 * normSq (c.halfAngVel m)) with hsd
  have hs2 : s ^ 2 < 1 / 4 := by rw [hs]; linarith
  have hs1 : s < 1 / 2 := by nlinarith
  have hp : 0 < 1 - s := by linarith
  have hfrac : (s / (1 - s)) ^ 2 < 1 := by
    have h1 : s / (1 - s) < 1 := by rw [div_lt_one hp]; linarith
    have h0 : 0 ≤ s / (1 - s) := div_nonneg hs0 hp.le
    nlinarith
  have ht := tol_pos (K := K)
  obtain ⟨n, hn⟩ := exists_pow_lt_of_lt_one (show (0 : K) < rotTol * rotTol / 4 by positivity) hfrac
  obtain ⟨h0, hu0, e0⟩ := first_ok hsq hq
  refine ⟨n + 1, fun fuel hf => ?_⟩
  obtain ⟨fuel, rfl⟩ : ∃ k, fuel = k + 1 := ⟨fuel - 1, by omega⟩
  obtain ⟨l, hl, hl2, hle⟩ := normalize_ok (c := c) hsq (lt_of_lt_of_le (by positivity) (half_bounds (c := c) (om := c.halfAngVel m) hq hu0 hs0 hs))
  have hu1 := scale_unit hl hl2
  obtain ⟨d, hd⟩ := iterate_ends hsq hq hs0 hs hs1 n (d := RotInt.derivative (c.halfAngVel m) h0) hu1 hu0 hle
    (by
      have h1 := unit_diff_le hu1 hu0
      have h2 : (0 : K) ≤ ((s / (1 - s)) ^ 2) ^ n := by positivity
      nlinarith [inner_self_nonneg ((halfOf c m.q (c.halfAngVel m) h0).scale (1 / l) - h0)]) (show n ≤ fuel by omega)
  have hit : c.iterate m.q (c.halfAngVel m) (fuel + 1) h0 { h0 with w := h0.w + 2 * rotTol } (c.firstDerivative m) = .ok d := by
    rw [iterate_step hu0 (first_apart h0), hle]
    exact hd
  obtain ⟨g, hg, -, rfl⟩ := iterate_inv hsq (fun _ => True) (fun _ _ _ _ _ => trivial) hu0 trivial (fun h => absurd h (first_apart h0)) hit
  obtain ⟨l', hl', hl2', hle'⟩ := normalize_ok (c := c) hsq (full_pos (c := c) hq hg hs0 hs hs1)
  unfold RotInt.updateQuaternion
  dsimp only
  rw [e0]
  dsimp only [Outcome.bind]
  rw [hit]
  dsimp only
  rw [full_eq hg, hle']
  exact ⟨_, rfl⟩

/-- If it turns by more than `√17` radians in a time step, the step does not end. -/
theorem C94_violated_hangs (hsq : IsSqrt c.sqrt) {m : Rotor K} (hq : IsUnit4 m.q) (hfast : 17 ≤ c.dt ^ 2 * normSq (c.halfAngVel m)) : StepHangs c m := by
  have key : ∀ fuel (h old d : Q4 K), IsUnit4 h → ¬ (h - old).inner (h - old) ≤ rotTol * rotTol → c.iterate m.q (c.halfAngVel m) fuel h old d = .diverges := by
    intro fuel
    induction fuel with
    | zero => exact fun h old d _ hc => iterate_zero hc
    | succ fuel ih =>
      intro h old d hh hc
      rw [iterate_step hh hc]
      obtain ⟨h', hu', e', ha⟩ := stays_apart hsq hq hh hfast
      rw [e']
      exact ih h' h _ hu' ha
  intro fuel
  obtain ⟨h0, hu0, e0⟩ := first_ok hsq hq
  unfold RotInt.updateQuaternion
  dsimp only
  rw [e0]
  dsimp only [Outcome.bind]
  rw [key fuel h0 _ _ hu0 (first_apart h0)]

/-! ### Equal moments of inertia -/

theorem round_trip {q : Q4 K} (hq : IsUnit4 q) (v : V3 K) (i t : K) :
    (rotatePosition q ((rotatePositionBackwards q v).quot ⟨i, i, i⟩)).scale t = v.scale (t / i) := by
  have h1 : (rotatePositionBackwards q v).quot ⟨i, i, i⟩ = (rotatePositionBackwards q v).scale (1 / i) := by
    apply v3_ext <;> simp only [V3.quot, V3.scale] <;> ring
  rw [h1, (C93_rotates hq).scale, (C93_backwards hq v).2]
  apply v3_ext <;> simp only [V3.scale] <;> ring

theorem momentum_round {m : Rotor K} (hq : IsUnit4 m.q) (i : K) : angularMomentum ⟨i, i, i⟩ m = m.angVel.scale i := by
  have h1 : (⟨i, i, i⟩ : V3 K) * rotatePositionBackwards m.q m.angVel = (rotatePositionBackwards m.q m.angVel).scale i := by
    apply v3_ext <;> simp only [V3.scale]
    · exact mul_comm _ _
    · exact mul_comm _ _
    · exact mul_comm _ _
  unfold angularMomentum
  rw [h1, (C93_rotates hq).scale, (C93_backwards hq _).2]

/-- With equal moments of inertia, the angular momentum changes by the mean of the torques before and after the step, times the time step. -/
theorem C94_angular_momentum_partial (hsq : IsSqrt c.sqrt) {i : K} (hi : i ≠ 0) (hc : c.inertia = ⟨i, i, i⟩) {fuel : Nat} {t : V3 K} {m m' : Rotor K} (hq : IsUnit4 m.q)
    (he : c.iteration fuel t m = .ok m') :
    angularMomentum c.inertia m' = angularMomentum c.inertia m + (m.torque + m'.torque).scale (c.dt / 2) ∧ m'.torque = c.globalTorque m'.q + t := by
  have hq' := iteration_unit hsq hq he
  obtain ⟨m1, h1, rfl⟩ := iteration_ok he
  have hq1 := update_unit hsq hq h1
  obtain ⟨h, -, -, h2, h3, h4⟩ := rotUpdate_spec hsq hq (fun _ => True) (fun _ _ => trivial) (fun _ _ _ _ _ => trivial) h1
  refine ⟨?_, by show m1.torque + t = _; rw [h4]; rfl⟩
  rw [hc, momentum_round hq' i, momentum_round hq i]
  have e1 : c.halfAngVel m = m.angVel + m.torque.scale (1 / 2 * c.dt / i) := by
    unfold RotInt.halfAngVel
    rw [hc, round_trip hq]
  have e2 : (c.updateAngularVelocity (m1.addTorque t)).angVel = m1.angVel + (m1.torque + t).scale (1 / 2 * c.dt / i) := by
    unfold RotInt.updateAngularVelocity Rotor.addTorque
    dsimp only
    rw [hc, round_trip hq1]
    congr 1
    apply v3_ext <;> simp only [V3.scale] <;> ring
  rw [e2, h3, e1]
  show _ = _ + (m.torque + (m1.torque + t)).scale (c.dt / 2)
  apply v3_ext <;> simp only [V3.scale, v3_add_def] <;> field_simp <;> ring

/-- The torque of a global force that acts on every site: the sum of site position × force, with the positions turned by the quaternion. Forces with no component above
the smallest positive number the code distinguishes from zero are ignored. -/
theorem C94_global_torque {q : Q4 K} :
    ((c.eps < |c.globalForce.x| ∨ c.eps < |c.globalForce.y| ∨ c.eps < |c.globalForce.z|) →
      c.globalTorque q =
        ⟨((c.sites.map (rotatePosition q)).map fun r => r.y * c.globalForce.z - r.z * c.globalForce.y).sum,
         ((c.sites.map (rotatePosition q)).map fun r => r.z * c.globalForce.x - r.x * c.globalForce.z).sum,
         ((c.sites.map (rotatePosition q)).map fun r => r.x * c.globalForce.y - r.y * c.globalForce.x).sum⟩) ∧
    (¬ (c.eps < |c.globalForce.x| ∨ c.eps < |c.globalForce.y| ∨ c.eps < |c.globalForce.z|) → c.globalTorque q = 0) := by
  refine ⟨fun h => ?_, fun h => by unfold RotInt.globalTorque; rw [if_neg h]⟩
  unfold RotInt.globalTorque
  rw [if_pos h, C93_many]
  have key : ∀ (l : List (V3 K)) (t : V3 K), l.foldl (fun t p => t + p.cross c.globalForce) t =
      ⟨t.x + (l.map fun r => r.y * c.globalForce.z - r.z * c.globalForce.y).sum,
       t.y + (l.map fun r => r.z * c.globalForce.x - r.x * c.globalForce.z).sum,
       t.z + (l.map fun r => r.x * c.globalForce.y - r.y * c.globalForce.x).sum⟩ := by
    intro l
    induction l with
    | nil => intro t; simp
    | cons r l ih =>
      intro t
      rw [List.foldl_cons, ih]
      apply v3_ext <;> simp only [v3_add_def, V3.cross, List.map_cons, List.sum_cons] <;> ring
  rw [key]
  apply v3_ext
  · exact zero_add _
  · exact zero_add _
  · exact zero_add _

/-- The torque of the global force vanishes if there is none. -/
theorem no_global {q : Q4 K} (h0 : 0 ≤ c.eps) (hg : c.globalForce = 0) : c.globalTorque q = 0 := by
  unfold RotInt.globalTorque
  rw [hg, if_neg]
  show ¬ (c.eps < |(0 : K)| ∨ c.eps < |(0 : K)| ∨ c.eps < |(0 : K)|)
  rw [abs_zero]
  push Not
  exact ⟨h0, h0, h0⟩

/-- A free molecule with equal moments of inertia keeps its angular velocity and turns about its axis: the axis is at rest in space and in the molecule. -/
theorem C94_free_rotation_partial (hsq : IsSqrt c.sqrt) (h0 : 0 ≤ c.eps) (hg : c.globalForce = 0) {i : K} (hi : i ≠ 0) (hc : c.inertia = ⟨i, i, i⟩) {fuel n : Nat}
    {m m' : Rotor K} (hq : IsUnit4 m.q) (ht : m.torque = 0) (he : c.run fuel (List.replicate n 0) m = .ok m') :
    m'.angVel = m.angVel ∧ rotatePositionBackwards m'.q m'.angVel = rotatePositionBackwards m.q m.angVel ∧ angularMomentum c.inertia m' = angularMomentum c.inertia m := by
  suffices h : IsUnit4 m'.q ∧ m'.angVel = m.angVel ∧ rotatePositionBackwards m'.q m.angVel = rotatePositionBackwards m.q m.angVel by
    obtain ⟨h1, h2, h3⟩ := h
    refine ⟨h2, by rw [h2, h3], ?_⟩
    rw [hc, momentum_round h1, momentum_round hq, h2]
  induction n generalizing m with
  | zero => cases he; exact ⟨hq, rfl, rfl⟩
  | succ n ih =>
    obtain ⟨m1, e1, e2⟩ := run_cons_ok he
    have hq1 := iteration_unit hsq hq e1
    have hz : ∀ v : V3 K, v + 0 = v := fun v => by apply v3_ext <;> exact add_zero _
    have hzs : ∀ s : K, (0 : V3 K).scale s = 0 := fun s => by apply v3_ext <;> exact zero_mul _
    have hL := C94_angular_momentum_partial hsq hi hc hq e1
    have ht1 : m1.torque = 0 := by rw [hL.2, no_global h0 hg, hz]
    have hw : m1.angVel = m.angVel := by
      have := hL.1
      rw [hc, momentum_round hq1, momentum_round hq, ht, ht1, hz, hzs, hz] at this
      have hx := congrArg V3.x this
      have hy := congrArg V3.y this
      have hzz := congrArg V3.z this
      simp only [V3.scale] at hx hy hzz
      exact v3_ext (mul_right_cancel₀ hi hx) (mul_right_cancel₀ hi hy) (mul_right_cancel₀ hi hzz)
    obtain ⟨f1, f2, f3⟩ := ih hq1 ht1 e2
    rw [hw] at f2 f3
    refine ⟨f1, f2, f3.trans ?_⟩
    obtain ⟨m2, g1, rfl⟩ := iteration_ok e1
    have hom : c.halfAngVel m = m.angVel := by
      unfold RotInt.halfAngVel
      rw [hc, round_trip hq, ht, hzs, hz]
    -- all quaternions are combinations of `q` and `om q`
    have hlin : ∀ a b s : K, (⟨a * m.q.w + b * (vecQMul m.angVel m.q).w, a * m.q.x + b * (vecQMul m.angVel m.q).x, a * m.q.y + b * (vecQMul m.angVel m.q).y,
        a * m.q.z + b * (vecQMul m.angVel m.q).z⟩ : Q4 K).scale s = ⟨(a * s) * m.q.w + (b * s) * (vecQMul m.angVel m.q).w,
        (a * s) * m.q.x + (b * s) * (vecQMul m.angVel m.q).x, (a * s) * m.q.y + (b * s) * (vecQMul m.angVel m.q).y,
        (a * s) * m.q.z + (b * s) * (vecQMul m.angVel m.q).z⟩ := by
      intro a b s
      apply q4_ext <;> simp only [Q4.scale] <;> ring
    have hnorm : ∀ {x y : Q4 K}, c.normalize x = .ok y → ∃ s, y = x.scale s := by
      intro x y h
      unfold RotInt.normalize at h
      split at h
      · cases h
      · cases h; exact ⟨_, rfl⟩
    let Comb : Q4 K → Prop := fun h => ∃ a b : K, h = ⟨a * m.q.w + b * (vecQMul m.angVel m.q).w, a * m.q.x + b * (vecQMul m.angVel m.q).x,
        a * m.q.y + b * (vecQMul m.angVel m.q).y, a * m.q.z + b * (vecQMul m.angVel m.q).z⟩
    have hstep : ∀ h, Comb h → ∀ s : K, Comb (m.q + (vecQMul m.angVel h).scale s) := by
      rintro h ⟨a, b, rfl⟩ s
      refine ⟨1 - b * s * normSq m.angVel, a * s, ?_⟩
      apply q4_ext
      · show m.q.w + (vecQMul _ _).w * s = _
        simp only [vecQMul, qMul, normSq]; ring
      · show m.q.x + (vecQMul _ _).x * s = _
        simp only [vecQMul, qMul, normSq]; ring
      · show m.q.y + (vecQMul _ _).y * s = _
        simp only [vecQMul, qMul, normSq]; ring
      · show m.q.z + (vecQMul _ _).z * s = _
        simp only [vecQMul, qMul, normSq]; ring
    have hsc : ∀ h, Comb h → ∀ s, Comb (h.scale s) := by
      rintro h ⟨a, b, rfl⟩ s
      exact ⟨a * s, b * s, hlin a b s⟩
    obtain ⟨h, hh, hcomb, k1, -, -⟩ := rotUpdate_spec hsq hq Comb
      (by
        intro h hn
        obtain ⟨s, rfl⟩ := hnorm hn
        refine hsc _ ?_ s
        have hfd : c.firstDerivative m = (vecQMul m.angVel m.q).scale (1 / 2) := by
          rw [← derivative_eq hq]
          unfold RotInt.firstDerivative RotInt.derivative
          dsimp only
          congr 2
          rw [hc, ht]
          have hb0 : rotatePositionBackwards m.q (0 : V3 K) = 0 := by
            apply v3_ext <;> simp only [rotatePositionBackwards, rotatePosition]
            · show _ * (0 : K) + _ * (0 : K) + _ * (0 : K) = 0; ring
            · show _ * (0 : K) + _ * (0 : K) + _ * (0 : K) = 0; ring
            · show _ * (0 : K) + _ * (0 : K) + _ * (0 : K) = 0; ring
          rw [hb0]
          generalize rotatePositionBackwards m.q m.angVel = v
          apply v3_ext
          · show (i * v.x + (0 - (v.y * (i * v.z) - v.z * (i * v.y))) * (1 / 2 * c.dt)) / i = v.x
            field_simp
            ring
          · show (i * v.y + (0 - (v.z * (i * v.x) - v.x * (i * v.z))) * (1 / 2 * c.dt)) / i = v.y
            field_simp
            ring
          · show (i * v.z + (0 - (v.x * (i * v.y) - v.y * (i * v.x))) * (1 / 2 * c.dt)) / i = v.z
            field_simp
            ring
        rw [hfd]
        refine ⟨1, 1 / 2 * (1 / 2 * c.dt), ?_⟩
        apply q4_ext
        · show m.q.w + _ * (1 / 2) * _ = _; ring
        · show m.q.x + _ * (1 / 2) * _ = _; ring
        · show m.q.y + _ * (1 / 2) * _ = _; ring
        · show m.q.z + _ * (1 / 2) * _ = _; ring)
      (by
        intro h _ hcomb h' hn
        obtain ⟨s, rfl⟩ := hnorm hn
        rw [hom]
        exact hsc _ (hstep h hcomb _) s) g1
    rw [hom] at k1
    have hu2 := normalize_unit hsq k1
    obtain ⟨s, hs⟩ := hnorm k1
    obtain ⟨a, b, hab⟩ : Comb m2.q := by rw [hs]; exact hsc _ (hstep h hcomb _) s
    show rotatePositionBackwards m2.q m.angVel = _
    rw [hab] at hu2 ⊢
    have hn1 : a ^ 2 + b ^ 2 * normSq m.angVel = 1 := by
      unfold IsUnit4 at hu2 hq
      simp only [vecQMul, qMul] at hu2
      unfold normSq
      linear_combination hu2 - (a ^ 2 + b ^ 2 * (m.angVel.x ^ 2 + m.angVel.y ^ 2 + m.angVel.z ^ 2)) * hq
    unfold normSq at hn1
    apply v3_ext <;> simp only [rotatePositionBackwards, rotatePosition, Q4.matrix, vecQMul, qMul]
    · linear_combination ((m.q.w * m.q.w + m.q.x * m.q.x - m.q.y * m.q.y - m.q.z * m.q.z) * m.angVel.x + 2 * (m.q.x * m.q.y + m.q.w * m.q.z) * m.angVel.y +
        2 * (m.q.x * m.q.z - m.q.w * m.q.y) * m.angVel.z) * hn1
    · linear_combination (2 * (m.q.x * m.q.y - m.q.w * m.q.z) * m.angVel.x + (m.q.w * m.q.w - m.q.x * m.q.x + m.q.y * m.q.y - m.q.z * m.q.z) * m.angVel.y +
        2 * (m.q.y * m.q.z + m.q.w * m.q.x) * m.angVel.z) * hn1
    · linear_combination (2 * (m.q.x * m.q.z + m.q.w * m.q.y) * m.angVel.x + 2 * (m.q.y * m.q.z - m.q.w * m.q.x) * m.angVel.y +
        (m.q.w * m.q.w - m.q.x * m.q.x - m.q.y * m.q.y + m.q.z * m.q.z) * m.angVel.z) * hn1

/-! ### Violations -/

/-- A symmetric top with moments of inertia 1, 1, 2. -/
def symmetricTop (sqrt : K → K) : RotInt K := ⟨sqrt, 1 / 4, ⟨1, 1, 2⟩, [], 0, 0⟩
/-- It turns about an axis between its own axes. -/
def tumbling : Rotor K := ⟨⟨1, 0, 0, 0⟩, ⟨1, 0, 1⟩, 0⟩

theorem tumbling_half (sqrt : K → K) : (symmetricTop sqrt).halfAngVel tumbling = ⟨1, 0, 1⟩ := by
  apply v3_ext <;> simp only [RotInt.halfAngVel, tumbling, symmetricTop, v3_add_def, V3.scale, rotatePosition, rotatePositionBackwards, Q4.matrix, V3.quot]
  · show 1 + (_ * ((_ * (0 : K) + _ * (0 : K) + _ * (0 : K)) / 1) + _ * ((_ * (0 : K) + _ * (0 : K) + _ * (0 : K)) / 1) + _ * ((_ * (0 : K) + _ * (0 : K) + _ * (0 : K)) / 2)) * _ = 1
    ring
  · show 0 + (_ * ((_ * (0 : K) + _ * (0 : K) + _ * (0 : K)) / 1) + _ * ((_ * (0 : K) + _ * (0 : K) + _ * (0 : K)) / 1) + _ * ((_ * (0 : K) + _ * (0 : K) + _ * (0 : K)) / 2)) * _ = 0
    ring
  · show 1 + (_ * ((_ * (0 : K) + _ * (0 : K) + _ * (0 : K)) / 1) + _ * ((_ * (0 : K) + _ * (0 : K) + _ * (0 : K)) / 1) + _ * ((_ * (0 : K) + _ * (0 : K) + _ * (0 : K)) / 2)) * _ = 1
    ring

theorem tumbling_first (sqrt : K → K) : (symmetricTop sqrt).firstDerivative tumbling = ⟨0, 1 / 2, 1 / 16, 1 / 2⟩ := by
  have hb : ∀ v : V3 K, rotatePositionBackwards ⟨1, 0, 0, 0⟩ v = v := by
    intro v
    apply v3_ext <;> simp only [rotatePositionBackwards, rotatePosition, Q4.matrix] <;> ring
  unfold RotInt.firstDerivative tumbling symmetricTop
  dsimp only
  rw [hb, hb]
  apply q4_ext
  · show (1 * 0 - 0 * _ - 0 * _ - 0 * _) * (1 / 2) = (0 : K)
    ring
  · show (1 * ((1 * 1 + (0 - (0 * (2 * 1) - 1 * (1 * 0))) * (1 / 2 * (1 / 4))) / 1) + 0 * 0 + 0 * _ - 0 * _) * (1 / 2) = (1 / 2 : K)
    norm_num
  · show (1 * ((1 * 0 + (0 - (1 * (1 * 1) - 1 * (2 * 1))) * (1 / 2 * (1 / 4))) / 1) - 0 * _ + 0 * 0 + 0 * _) * (1 / 2) = (1 / 16 : K)
    norm_num
  · show (1 * ((2 * 1 + (0 - (1 * (1 * 0) - 0 * (1 * 1))) * (1 / 2 * (1 / 4))) / 2) + 0 * _ - 0 * _ + 0 * 0) * (1 / 2) = (1 / 2 : K)
    norm_num

theorem unit_bounds {h : Q4 K} (hh : IsUnit4 h) : (-1 ≤ h.w ∧ h.w ≤ 1) ∧ (-1 ≤ h.x ∧ h.x ≤ 1) ∧ (-1 ≤ h.y ∧ h.y ≤ 1) ∧ (-1 ≤ h.z ∧ h.z ≤ 1) := by
  unfold IsUnit4 at hh
  refine ⟨⟨?_, ?_⟩, ⟨?_, ?_⟩, ⟨?_, ?_⟩, ⟨?_, ?_⟩⟩ <;>
    nlinarith [sq_nonneg h.w, sq_nonneg h.x, sq_nonneg h.y, sq_nonneg h.z]

/-- With unequal moments of inertia the angular momentum of a free molecule changes within one time step. -/
theorem C94_violated_angular_momentum [Archimedean K] {sqrt : K → K} (hsq : IsSqrt sqrt) : ∃ fuel m', (symmetricTop sqrt).iteration fuel 0 tumbling = .ok m' ∧
    (tumbling : Rotor K).torque = 0 ∧ m'.torque = 0 ∧ m'.angVel = (tumbling : Rotor K).angVel ∧
    angularMomentum (symmetricTop sqrt).inertia m' ≠ angularMomentum (symmetricTop sqrt).inertia tumbling := by
  have hq : IsUnit4 (tumbling : Rotor K).q := by unfold IsUnit4 tumbling; norm_num
  have hsq' : IsSqrt (symmetricTop sqrt).sqrt := hsq
  obtain ⟨n, hn⟩ := C94_step_ends_partial hsq' hq (by rw [tumbling_half]; unfold symmetricTop normSq; norm_num)
  obtain ⟨m1, hm1⟩ := hn n le_rfl
  have hpos : ∀ {x y : Q4 K}, (symmetricTop sqrt).normalize x = .ok y → ∃ s, 0 < s ∧ y = x.scale s := by
    intro x y h
    have h0 := hsq (x.inner x) (inner_self_nonneg x)
    unfold RotInt.normalize at h
    split at h
    · cases h
    · rename_i hne
      cases h
      exact ⟨_, one_div_pos.2 (lt_of_le_of_ne h0.1 (Ne.symm hne)), rfl⟩
  obtain ⟨h, hh, hlt, e1, e2, e3⟩ := rotUpdate_spec hsq' hq (fun h => h.y < h.w)
    (by
      intro h he
      obtain ⟨s, hs, rfl⟩ := hpos he
      rw [tumbling_first]
      show (0 + 1 / 16 * (1 / 2 * (1 / 4))) * s < (1 + 0 * (1 / 2 * (1 / 4))) * s
      exact mul_lt_mul_of_pos_right (by norm_num) hs)
    (by
      intro h hh _ h' he
      obtain ⟨s, hs, rfl⟩ := hpos he
      rw [tumbling_half]
      show (0 + (0 * h.y - 1 * h.z + 0 * h.w + 1 * h.x) * (1 / 4 / 4)) * s < (1 + (0 * h.w - 1 * h.x - 0 * h.y - 1 * h.z) * (1 / 4 / 4)) * s
      obtain ⟨-, hx, -, hz⟩ := unit_bounds hh
      exact mul_lt_mul_of_pos_right (by linarith) hs) hm1
  have hz : ∀ v : V3 K, v + 0 = v := fun v => by apply v3_ext <;> exact add_zero _
  have ht : m1.torque = 0 := by rw [e3]; exact no_global (c := symmetricTop sqrt) le_rfl rfl
  have hit : (symmetricTop sqrt).iteration n 0 tumbling = .ok ((symmetricTop sqrt).updateAngularVelocity (m1.addTorque 0)) := by
    unfold RotInt.iteration
    rw [hm1]; rfl
  have hu := normalize_unit hsq' e1
  have hv : ((symmetricTop sqrt).updateAngularVelocity (m1.addTorque 0)).angVel = ⟨1, 0, 1⟩ := by
    rw [tumbling_half] at e2
    unfold RotInt.updateAngularVelocity Rotor.addTorque
    dsimp only
    rw [e2, ht, hz]
    apply v3_ext <;> simp only [rotatePositionBackwards, rotatePosition, V3.quot, V3.scale, v3_add_def]
    · show 1 + (_ * ((_ * (0 : K) + _ * (0 : K) + _ * (0 : K)) / 1) + _ * ((_ * (0 : K) + _ * (0 : K) + _ * (0 : K)) / 1) + _ * ((_ * (0 : K) + _ * (0 : K) + _ * (0 : K)) / 2)) * _ * _ = 1
      ring
    · show 0 + (_ * ((_ * (0 : K) + _ * (0 : K) + _ * (0 : K)) / 1) + _ * ((_ * (0 : K) + _ * (0 : K) + _ * (0 : K)) / 1) + _ * ((_ * (0 : K) + _ * (0 : K) + _ * (0 : K)) / 2)) * _ * _ = 0
      ring
    · show 1 + (_ * ((_ * (0 : K) + _ * (0 : K) + _ * (0 : K)) / 1) + _ * ((_ * (0 : K) + _ * (0 : K) + _ * (0 : K)) / 1) + _ * ((_ * (0 : K) + _ * (0 : K) + _ * (0 : K)) / 2)) * _ * _ = 1
      ring
  refine ⟨n, _, hit, rfl, by show m1.torque + 0 = 0; rw [ht, hz], hv, fun heq => ?_⟩
  -- components of the new quaternion
  obtain ⟨s, hs, hsq1⟩ := hpos e1
  rw [tumbling_half] at hsq1
  obtain ⟨⟨_, hw1⟩, hx, hy, hzz⟩ := unit_bounds hh
  have hqx : 0 < m1.q.x := by
    rw [hsq1]
    show 0 < (0 + (0 * h.x + 1 * h.w + 0 * h.z - 1 * h.y) * (1 / 4 / 2)) * s
    exact mul_pos (by linarith) hs
  have hqw : 0 < m1.q.w := by
    rw [hsq1]
    show 0 < (1 + (0 * h.w - 1 * h.x - 0 * h.y - 1 * h.z) * (1 / 4 / 2)) * s
    exact mul_pos (by linarith) hs
  unfold IsUnit4 at hu
  -- the third axis of the molecule
  set q := m1.q with hqd
  set n1 := 2 * (q.x * q.z + q.w * q.y) with hn1
  set n2 := 2 * (q.y * q.z - q.w * q.x) with hn2
  set n3 := q.w * q.w - q.x * q.x - q.y * q.y + q.z * q.z with hn3
  have hL : angularMomentum (symmetricTop sqrt).inertia ((symmetricTop sqrt).updateAngularVelocity (m1.addTorque 0)) =
      ⟨1 + (n1 + n3) * n1, (n1 + n3) * n2, 1 + (n1 + n3) * n3⟩ := by
    unfold angularMomentum
    rw [hv]
    show rotatePosition q ((⟨1, 1, 2⟩ : V3 K) * rotatePositionBackwards q ⟨1, 0, 1⟩) = _
    apply v3_ext
    · show (_ * (1 * (_ * 1 + _ * 0 + _ * 1)) + _ * (1 * (_ * 1 + _ * 0 + _ * 1)) + _ * (2 * (_ * 1 + _ * 0 + _ * 1)) : K) = _
      simp only [Q4.matrix]
      linear_combination (q.w ^ 2 + q.x ^ 2 + q.y ^ 2 + q.z ^ 2 + 1) * hu
    · show (_ * (1 * (_ * 1 + _ * 0 + _ * 1)) + _ * (1 * (_ * 1 + _ * 0 + _ * 1)) + _ * (2 * (_ * 1 + _ * 0 + _ * 1)) : K) = _
      simp only [Q4.matrix]
      ring
    · show (_ * (1 * (_ * 1 + _ * 0 + _ * 1)) + _ * (1 * (_ * 1 + _ * 0 + _ * 1)) + _ * (2 * (_ * 1 + _ * 0 + _ * 1)) : K) = _
      simp only [Q4.matrix]
      linear_combination (q.w ^ 2 + q.x ^ 2 + q.y ^ 2 + q.z ^ 2 + 1) * hu
  have hL0 : angularMomentum (symmetricTop sqrt).inertia (tumbling : Rotor K) = ⟨1, 0, 2⟩ := by
    unfold angularMomentum tumbling symmetricTop
    apply v3_ext
    · show ((1 * 1 + 0 * 0 - 0 * 0 - 0 * 0) * (1 * (_ * 1 + _ * 0 + _ * 1)) + (2 * (0 * 0 - 1 * 0)) * (1 * (_ * 1 + _ * 0 + _ * 1)) + (2 * (0 * 0 + 1 * 0)) * (2 * (_ * 1 + _ * 0 + _ * 1)) : K) = 1
      simp [Q4.matrix]
    · show ((2 * (0 * 0 + 1 * 0)) * (1 * (_ * 1 + _ * 0 + _ * 1)) + (1 * 1 - 0 * 0 + 0 * 0 - 0 * 0) * (1 * (_ * 1 + _ * 0 + _ * 1)) + (2 * (0 * 0 - 1 * 0)) * (2 * (_ * 1 + _ * 0 + _ * 1)) : K) = 0
      simp [Q4.matrix]
    · show ((2 * (0 * 0 - 1 * 0)) * (1 * (_ * 1 + _ * 0 + _ * 1)) + (2 * (0 * 0 + 1 * 0)) * (1 * (_ * 1 + _ * 0 + _ * 1)) + (1 * 1 - 0 * 0 - 0 * 0 + 0 * 0) * (2 * (_ * 1 + _ * 0 + _ * 1)) : K) = 2
      simp [Q4.matrix]
  rw [hL, hL0] at heq
  have g1 : (n1 + n3) * n1 = 0 := by have := congrArg V3.x heq; simp only at this; linarith
  have g3 : (n1 + n3) * n3 = 1 := by have := congrArg V3.z heq; simp only at this; linarith
  have gs : n1 + n3 ≠ 0 := fun h => by rw [h, zero_mul] at g3; exact zero_ne_one g3
  have gn1 : n1 = 0 := (mul_eq_zero.1 g1).resolve_left gs
  rw [gn1, zero_add] at g3
  have b1 : n3 < 1 := by rw [hn3]; nlinarith [mul_pos hqx hqx, sq_nonneg q.y]
  have b2 : -1 < n3 := by rw [hn3]; nlinarith [mul_pos hqw hqw, sq_nonneg q.z]
  nlinarith

/-- A tuning phase with `n + 1` tuning iterations in a paused simulation: the molecule gets the torque `n + 3` times. -/
theorem C94_violated_pause (hsq : IsSqrt c.sqrt) (h0 : 0 ≤ c.eps) (hg : c.globalForce = 0) {i : K} (hi : i ≠ 0) (hc : c.inertia = ⟨i, i, i⟩) {fuel n : Nat} {t : V3 K}
    {m m1 m2 : Rotor K} (hq : IsUnit4 m.q) (h1 : c.iteration fuel t m = .ok m1) (h2 : c.tuningPhase fuel t n m = .ok m2) :
    angularMomentum c.inertia m1 = angularMomentum c.inertia m + (m.torque + t).scale (c.dt / 2) ∧
    angularMomentum c.inertia m2 = angularMomentum c.inertia m + (m.torque + t.scale (n + 3)).scale (c.dt / 2) := by
  have hz : ∀ v : V3 K, 0 + v = v := fun v => by apply v3_ext <;> exact zero_add _
  have hfold : ∀ (k : Nat) (x : Rotor K), (List.range k).foldl (fun m _ => m.addTorque t) x = x.addTorque (t.scale k) := by
    intro k x
    induction k with
    | zero =>
      show x = { x with torque := x.torque + _ }
      have : x.torque + t.scale ((0 : Nat) : K) = x.torque := by
        apply v3_ext <;> simp [v3_add_def, V3.scale]
      rw [this]
    | succ k ih =>
      rw [List.range_succ, List.foldl_append, ih]
      show { x with torque := x.torque + _ + t } = { x with torque := _ }
      congr 1
      apply v3_ext <;> simp only [v3_add_def, V3.scale] <;> push_cast <;> ring
  have h2' : c.iteration fuel (t.scale (n + 3)) m = .ok m2 := by
    rw [← h2]
    unfold RotInt.iteration RotInt.tuningPhase
    congr 1
    funext x
    dsimp only
    rw [hfold]
    congr 2
    show { x with torque := _ } = { x with torque := x.torque + t + t.scale n + t + t }
    congr 1
    apply v3_ext <;> simp only [v3_add_def, V3.scale] <;> ring
  obtain ⟨a1, a2⟩ := C94_angular_momentum_partial hsq hi hc hq h1
  obtain ⟨b1, b2⟩ := C94_angular_momentum_partial hsq hi hc hq h2'
  rw [no_global h0 hg, hz] at a2 b2
  rw [a1, b1, a2, b2]
  exact ⟨rfl, rfl⟩

/-! ### Non-vacuity: real numbers -/

private theorem real_sqrt : IsSqrt Real.sqrt := fun x hx => ⟨Real.sqrt_nonneg x, Real.sq_sqrt hx⟩
private noncomputable def exRot : RotInt ℝ := ⟨Real.sqrt, 1 / 4, ⟨2, 2, 2⟩, [⟨1, 0, 0⟩, ⟨-1, 0, 0⟩], 0, 0⟩
private def exMol (w : ℝ) : Rotor ℝ := ⟨⟨1, 0, 0, 0⟩, ⟨0, 0, w⟩, 0⟩
private theorem exMol_half (w : ℝ) : exRot.halfAngVel (exMol w) = ⟨0, 0, w⟩ := by
  unfold RotInt.halfAngVel
  have : IsUnit4 (exMol w).q := by unfold IsUnit4 exMol; norm_num
  rw [show exRot.inertia = ⟨2, 2, 2⟩ from rfl, round_trip this]
  apply v3_ext <;> simp only [v3_add_def, V3.scale, exMol]
  · show 0 + (0 : ℝ) * _ = 0; ring
  · show 0 + (0 : ℝ) * _ = 0; ring
  · show w + (0 : ℝ) * _ = w; ring

/-- A dumbbell with one turn per time unit and time step 1/4 takes a step; with 20 radians per time unit the program hangs. -/
example : StepEnds exRot (exMol 6) ∧ StepHangs exRot (exMol 20) := by
  have hu : ∀ w, IsUnit4 (exMol w).q := fun w => by unfold IsUnit4 exMol; norm_num
  refine ⟨C94_step_ends_partial real_sqrt (hu 6) ?_, C94_violated_hangs real_sqrt (hu 20) ?_⟩
  · rw [exMol_half]; unfold exRot normSq; norm_num
  · rw [exMol_half]; unfold exRot normSq; norm_num

/-- A step of the dumbbell, and a torque. -/
example : ∃ fuel m', exRot.iteration fuel ⟨0, 1, 0⟩ (exMol 6) = .ok m' ∧ IsUnit4 m'.q ∧ angularMomentum exRot.inertia m' = ⟨0, 1 / 8, 12⟩ := by
  have hu : IsUnit4 (exMol 6).q := by unfold IsUnit4 exMol; norm_num
  obtain ⟨n, hn⟩ := C94_step_ends_partial (c := exRot) real_sqrt hu (by rw [exMol_half]; unfold exRot normSq; norm_num)
  obtain ⟨m1, h1⟩ := hn n le_rfl
  have hit : exRot.iteration n ⟨0, 1, 0⟩ (exMol 6) = .ok (exRot.updateAngularVelocity (m1.addTorque ⟨0, 1, 0⟩)) := by
    unfold RotInt.iteration; rw [h1]; rfl
  refine ⟨n, _, hit, iteration_unit real_sqrt hu hit, ?_⟩
  obtain ⟨a1, a2⟩ := C94_angular_momentum_partial (c := exRot) real_sqrt (i := 2) (by norm_num) rfl hu hit
  rw [no_global (c := exRot) le_rfl rfl] at a2
  rw [a1, a2, show exRot.inertia = ⟨2, 2, 2⟩ from rfl, momentum_round hu]
  apply v3_ext
  · show (0 : ℝ) * 2 + (0 + (0 + 0)) * (1 / 4 / 2) = 0; norm_num
  · show (0 : ℝ) * 2 + (0 + (0 + 1)) * (1 / 4 / 2) = 1 / 8; norm_num
  · show (6 : ℝ) * 2 + (0 + (0 + 0)) * (1 / 4 / 2) = 12; norm_num

example : ∃ fuel m', (symmetricTop Real.sqrt).iteration fuel 0 tumbling = .ok m' ∧ m'.angVel = (tumbling : Rotor ℝ).angVel ∧
    angularMomentum (symmetricTop Real.sqrt).inertia m' ≠ angularMomentum (symmetricTop Real.sqrt).inertia tumbling := by
  obtain ⟨f, m', h1, -, -, h2, h3⟩ := C94_violated_angular_momentum (K := ℝ) real_sqrt
  exact ⟨f, m', h1, h2, h3⟩

end Verif
