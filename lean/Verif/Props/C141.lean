import Mathlib.Tactic.Linarith
import Mathlib.Tactic.FieldSimp
import Mathlib.Tactic.Ring
import Mathlib.Tactic.Positivity
import Mathlib.Tactic.NormNum
import Verif.Model.NumParticlesEstimator
import Verif.Spec.NumParticlesEstimator
/-!
# C141: the estimated number of halo particles
-/
namespace Verif

open Spec.NumParticlesEstimator

/-- A box with three positive lengths. -/
theorem volume_pos_of_lt {lo hi : V3 Rat} (h : lo.x < hi.x ∧ lo.y < hi.y ∧ lo.z < hi.z) : 0 < volume lo hi := by
  obtain ⟨h1, h2, h3⟩ := h
  have h1 := sub_pos.2 h1
  have h2 := sub_pos.2 h2
  have h3 := sub_pos.2 h3
  unfold volume
  positivity

theorem grown_ge {lo hi : V3 Rat} (h : lo.x < hi.x ∧ lo.y < hi.y ∧ lo.z < hi.z) {w : Rat} (hw : 0 ≤ w) :
    volume lo hi ≤ volume (grownMin lo w) (grownMax hi w) := by
  obtain ⟨h1, h2, h3⟩ := h
  have h1 := (sub_pos.2 h1).le
  have h2 := (sub_pos.2 h2).le
  have h3 := (sub_pos.2 h3).le
  unfold volume grownMin grownMax
  have e1 : hi.x - lo.x ≤ hi.x + w - (lo.x - w) := by linarith
  have e2 : hi.y - lo.y ≤ hi.y + w - (lo.y - w) := by linarith
  have e3 : hi.z - lo.z ≤ hi.z + w - (lo.z - w) := by linarith
  exact mul_le_mul (mul_le_mul e1 e2 h2 (by linarith)) e3 h3 (mul_nonneg (by linarith) (by linarith))

/-- The estimate is the whole number of particles expected in the halo plus the number of particles in the box. Missing: the particles of the box should not
be part of it. -/
theorem C141_partial {n : Nat} {lo hi : V3 Rat} (h : lo.x < hi.x ∧ lo.y < hi.y ∧ lo.z < hi.z) {w : Rat} (hw : 0 ≤ w)
    (hr : n + expectedHalos n lo hi w < 2 ^ 64) :
    estimateNumHalosUniform n lo hi w = .ok (n + ⌊expectedHalos n lo hi w⌋.toNat) ∧ 0 ≤ expectedHalos n lo hi w := by
  have hv := volume_pos_of_lt h
  have hg := grown_ge h hw
  have hpos : 0 ≤ expectedHalos n lo hi w := by
    unfold expectedHalos
    have : (0 : Rat) ≤ n := Nat.cast_nonneg n
    have h2 : 0 ≤ volume (grownMin lo w) (grownMax hi w) - volume lo hi := by linarith
    positivity
  refine ⟨?_, hpos⟩
  have e : (n : Rat) * (volume (grownMin lo w) (grownMax hi w) / volume lo hi) = n + expectedHalos n lo hi w := by
    unfold expectedHalos
    field_simp
    ring
  have e' : (hi.x - lo.x + 2 * w) * (hi.y - lo.y + 2 * w) * (hi.z - lo.z + 2 * w) = volume (grownMin lo w) (grownMax hi w) := by
    unfold volume grownMin grownMax; ring
  have hv' : (hi.x - lo.x) * (hi.y - lo.y) * (hi.z - lo.z) = volume lo hi := rfl
  have hn : (0 : Rat) ≤ n := Nat.cast_nonneg n
  rw [estimateNumHalosUniform]
  dsimp only
  rw [hv', e', e, if_neg hv.ne', toSizeT, if_pos ⟨by linarith, by norm_num at hr ⊢; exact hr⟩]
  congr 1
  have h1 : ⌊(n : Rat) + expectedHalos n lo hi w⌋ = n + ⌊expectedHalos n lo hi w⌋ := by
    rw [Int.floor_natCast_add]
  have h2 : 0 ≤ ⌊expectedHalos n lo hi w⌋ := Int.floor_nonneg.2 hpos
  rw [h1]
  omega

/-- Violated: without any halo, as many halo particles are estimated as the box has particles; none are expected. -/
theorem C141_violated_no_halo {n : Nat} (hn : 0 < n) (hr : n < 2 ^ 64) {lo hi : V3 Rat} (h : lo.x < hi.x ∧ lo.y < hi.y ∧ lo.z < hi.z) :
    estimateNumHalosUniform n lo hi 0 = .ok n ∧ expectedHalos n lo hi 0 = 0 := by
  have e : expectedHalos n lo hi 0 = 0 := by simp [expectedHalos, volume, grownMin, grownMax]
  refine ⟨?_, e⟩
  have := (C141_partial (n := n) h le_rfl (by rw [e, add_zero]; exact_mod_cast hr)).1
  rw [this, e]; simp

/-- Reserving memory asks the container for the owned particles and the estimate, and each buffer for its part of the estimate: together not more than the
estimate, and less by fewer than the number of buffers. -/
theorem C141_reserve {n buffers : Nat} (hb : 0 < buffers) {lo hi : V3 Rat} (h : lo.x < hi.x ∧ lo.y < hi.y ∧ lo.z < hi.z) {w : Rat} (hw : 0 ≤ w)
    (hr : n + expectedHalos n lo hi w < 2 ^ 64) :
    ∃ each halos, reserveRequests n buffers lo hi w = .ok (each, n, halos) ∧ expectedHalos n lo hi w < halos + 1 ∧
      buffers * each ≤ halos ∧ halos < buffers * each + buffers := by
  obtain ⟨h1, h2⟩ := C141_partial h hw hr
  refine ⟨(n + ⌊expectedHalos n lo hi w⌋.toNat) / buffers, n + ⌊expectedHalos n lo hi w⌋.toNat, ?_, ?_, Nat.mul_div_le _ _, ?_⟩
  · rw [reserveRequests, h1]
    simp only [Outcome.bind]
    rw [if_neg (by omega)]
  · have h3 : expectedHalos n lo hi w < ⌊expectedHalos n lo hi w⌋ + 1 := Int.lt_floor_add_one _
    have h4 : ((⌊expectedHalos n lo hi w⌋.toNat : Int) : Rat) = ⌊expectedHalos n lo hi w⌋ := by
      rw [Int.toNat_of_nonneg (Int.floor_nonneg.2 h2)]
    have h5 : (0 : Rat) ≤ n := Nat.cast_nonneg n
    push_cast at h4 ⊢
    linarith
  · have := Nat.div_add_mod (n + ⌊expectedHalos n lo hi w⌋.toNat) buffers
    have := Nat.mod_lt (n + ⌊expectedHalos n lo hi w⌋.toNat) hb
    omega

/-- A box without volume: undefined behaviour. -/
theorem C141_violated_flat (n : Nat) {lo hi : V3 Rat} (h : lo.x = hi.x) (w : Rat) : estimateNumHalosUniform n lo hi w = .ub := by
  simp [estimateNumHalosUniform, h]

/-- 1000 particles in a box of length 10 with a halo of width 1: 728 are expected, the estimate is 1728. -/
example : estimateNumHalosUniform 1000 ⟨0, 0, 0⟩ ⟨10, 10, 10⟩ 1 = .ok 1728 ∧ expectedHalos 1000 ⟨0, 0, 0⟩ ⟨10, 10, 10⟩ 1 = 728 := by
  constructor <;> decide +kernel

end Verif
