import Verif.Model.VerletLists
import Verif.Lemmas.Skin
import Mathlib.Tactic.NormNum
/-!
# C22 — Neighbour lists stay complete within the skin

`traj t p` is the position of particle `p` `t` iterations after the lists were built. AutoPas uses
skin = skinPerTimestep * rebuildFrequency, and the interaction length cutoff + skin for building.
-/
namespace Verif
open Spec

variable {P : Type}

/-- If no particle moves more than half of `skinPerTimestep` per iteration, then up to `rebuildFrequency` iterations after
the build every pair that is now closer than the cutoff and was offered to the list builder is in the lists. -/
theorem C22_lists_complete_until_rebuild (traj : Nat → P → V3 Rat) (own : P → Ownership) (cutoff skinPerTimestep : Rat)
    (rebuildFrequency : Nat) (hc : 0 ≤ cutoff) (hs : 0 ≤ skinPerTimestep)
    (hmove : ∀ t p, distSq (traj t p) (traj (t + 1) p) ≤ (skinPerTimestep / 2) * (skinPerTimestep / 2))
    (calls : List (PairCall P)) (n : Nat) (hn : n ≤ rebuildFrequency) (i j : P) (newton3 : Bool)
    (hcall : ⟨i, j, newton3⟩ ∈ calls) (hi : own i ≠ .dummy) (hj : own j ≠ .dummy)
    (hnow : distSq (traj n i) (traj n j) < cutoff * cutoff) :
    (i, j) ∈ verletBuild (traj 0) own (cutoff + skinPerTimestep * rebuildFrequency) calls := by
  have hh : 0 ≤ skinPerTimestep / 2 := by linarith
  have hnn : (0 : Rat) ≤ n * (skinPerTimestep / 2) := mul_nonneg (Nat.cast_nonneg n) hh
  have d1 := displacement (traj := fun t => traj t i) hh (fun t => hmove t i) n
  have d2 := displacement (traj := fun t => traj t j) hh (fun t => hmove t j) n
  rw [distSq_symm] at d2
  -- i(n) → j(n) → j(0)
  have e1 := distSq_triangle_lt hc hnn hnow d2
  -- j(0) → i(n) → i(0)
  rw [distSq_symm] at e1 d1
  have e2 := distSq_triangle_lt (add_nonneg hc hnn) hnn e1 d1
  rw [distSq_symm] at e2
  have hle : cutoff + n * (skinPerTimestep / 2) + n * (skinPerTimestep / 2) ≤ cutoff + skinPerTimestep * rebuildFrequency := by
    have : (n : Rat) ≤ rebuildFrequency := by exact_mod_cast hn
    nlinarith
  have hpos : 0 ≤ cutoff + n * (skinPerTimestep / 2) + n * (skinPerTimestep / 2) := by linarith
  have e3 : distSq (traj 0 i) (traj 0 j) <
      (cutoff + skinPerTimestep * rebuildFrequency) * (cutoff + skinPerTimestep * rebuildFrequency) :=
    lt_of_lt_of_le e2 (mul_le_mul hle hle hpos (by linarith))
  refine List.mem_flatMap.2 ⟨_, hcall, ?_⟩
  simp [verletGen, hi, hj, e3]

/-- The lists contain nothing else: only offered pairs closer than the interaction length at build time, each as often as it
was offered. -/
theorem C22_lists_only_offered_pairs [DecidableEq P] (pos : P → V3 Rat) (own : P → Ownership) (il : Rat)
    (calls : List (PairCall P)) (i j : P) :
    (verletBuild pos own il calls).count (i, j) =
      if own i ≠ .dummy ∧ own j ≠ .dummy ∧ distSq (pos i) (pos j) < il * il then
        calls.countP (fun c => c.p = i ∧ c.q = j) else 0 := by
  induction calls with
  | nil => simp [verletBuild]
  | cons c calls ih =>
    have : verletBuild pos own il (c :: calls) = verletGen pos own il c ++ verletBuild pos own il calls := rfl
    rw [this, List.count_append, ih, List.countP_cons]
    unfold verletGen
    by_cases h : c.p = i ∧ c.q = j
    · obtain ⟨rfl, rfl⟩ := h
      split_ifs <;> simp_all <;> omega
    · have h' : (c.p, c.q) ≠ (i, j) := by simpa using h
      split_ifs <;> simp_all

/-- The list traversal calls the functor once per list entry. -/
theorem C22_iteration_calls_every_entry [DecidableEq P] (lists : List (P × P)) (i j : P) :
    (verletIterate lists).countP (fun c => c.p = i ∧ c.q = j ∧ c.newton3 = false) = lists.count (i, j) := by
  unfold verletIterate
  rw [List.countP_map, List.count]
  apply List.countP_congr
  intro e _
  simp [Prod.ext_iff]

-- cutoff 1, skin 1/10 per step, rebuild every 10 steps: two particles approach from distance 3/2 by 1/20 each per step
example : ∀ t, distSq (⟨t / 20, 0, 0⟩ : V3 Rat) ⟨(t + 1) / 20, 0, 0⟩ ≤ (1 / 10 / 2) * (1 / 10 / 2) := by
  intro t
  simp only [distSq]
  ring_nf
  norm_num
example : ((0, 1) : Nat × Nat) ∈ verletBuild (fun n : Nat => (⟨(3 / 2) * n, 0, 0⟩ : V3 Rat)) (fun _ => .owned) (1 + 1 / 10 * 10)
    [⟨0, 1, false⟩] := by decide +kernel
-- one step too many, or one bit more motion, can lose a pair: distance 2 at build time is outside
example : ((0, 1) : Nat × Nat) ∉ verletBuild (fun n : Nat => (⟨2 * n, 0, 0⟩ : V3 Rat)) (fun _ => .owned) (1 + 1 / 10 * 10)
    [⟨0, 1, false⟩] := by decide +kernel

end Verif
