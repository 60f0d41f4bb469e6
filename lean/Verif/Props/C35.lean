import Verif.Spec.Ownership
import Verif.Spec.Geometry
import Mathlib.Tactic.IntervalCases
import Mathlib.Data.Nat.Bitwise
/-!
# C35 — Iterator behaviour flags select exactly the documented ownership states
-/
namespace Verif
open Spec

/-- Iterators accept a particle iff its state is among the states the behaviour names, for every combination of bits. -/
theorem C35_iterators_select_named_states (behavior : Nat) (s : Ownership) :
    fulfillsOwnership behavior s = true ↔ Names behavior s := by
  have key : ∀ k : Nat, (behavior &&& 2 ^ k ≠ 0) ↔ behavior.testBit k = true := by
    intro k
    rw [Nat.and_two_pow]
    cases behavior.testBit k <;> simp
  have k0 := key 0
  have k1 := key 1
  have k2 := key 2
  norm_num at k0 k1 k2
  have k7 : behavior &&& 7 = 7 ↔ (behavior.testBit 0 = true ∧ behavior.testBit 1 = true ∧ behavior.testBit 2 = true) := by
    constructor
    · intro h
      have t : ∀ k, (behavior &&& 7).testBit k = (7 : Nat).testBit k := by rw [h]; simp
      have t0 := t 0
      have t1 := t 1
      have t2 := t 2
      simp only [Nat.testBit_and] at t0 t1 t2
      have e0 : (7 : Nat).testBit 0 = true := by decide
      have e1 : (7 : Nat).testBit 1 = true := by decide
      have e2 : (7 : Nat).testBit 2 = true := by decide
      simp only [e0, e1, e2, Bool.and_true] at t0 t1 t2
      exact ⟨t0, t1, t2⟩
    · rintro ⟨h0, h1, h2⟩
      apply Nat.eq_of_testBit_eq
      intro i
      rw [Nat.testBit_and]
      by_cases hi : i < 3
      · interval_cases i <;> simp_all
      · have : (7 : Nat).testBit i = false := by
          apply Nat.testBit_lt_two_pow
          calc 7 < 2 ^ 3 := by decide
            _ ≤ 2 ^ i := Nat.pow_le_pow_right (by decide) (by omega)
        rw [this, Bool.and_false]
  unfold fulfillsOwnership Names ibOwnedOrHaloOrDummy ibDummy
  cases s
  · by_cases h : behavior.testBit 2 = true
    · simp [h, k7, k2]
    · have : behavior &&& 4 = 0 := by by_contra hc; exact h (k2.1 hc)
      simp [h, k7, this, Ownership.value]
  · have e : Ownership.owned.value &&& behavior = behavior &&& 1 := Nat.and_comm ..
    by_cases h7 : behavior &&& 7 = 7
    · simp [h7, (k7.1 h7).1]
    · rw [if_neg (by rintro (h | ⟨-, h⟩) <;> [exact h7 h; cases h]), e]
      simpa using k0
  · have e : Ownership.halo.value &&& behavior = behavior &&& 2 := Nat.and_comm ..
    by_cases h7 : behavior &&& 7 = 7
    · simp [h7, (k7.1 h7).2.1]
    · rw [if_neg (by rintro (h | ⟨-, h⟩) <;> [exact h7 h; cases h]), e]
      simpa using k1

/-- `forEach`/`reduce`: whenever the check answers, it answers as documented. Missing for the full property: it does not
answer for all behaviours (next theorem). -/
theorem C35_forEach_selects_named_states_partial (behavior : Nat) (s : Ownership) (answer : Bool)
    (h : ibContains behavior s = some answer) : answer = true ↔ Names behavior s := by
  unfold ibContains ibOwnedOrHaloOrDummy ibOwnedOrHalo ibHalo ibOwned ibDummy at h
  unfold Names
  split_ifs at h with h1 h2 h3 h4 h5 <;> (try subst behavior) <;> simp only [Option.some.injEq] at h <;> subst h <;>
    cases s <;> simp <;> decide

/-- `forEach`/`reduce` throw for every behaviour that is not one of the five named ones, e.g. for
`owned | forceSequential`, which iterators accept. -/
theorem C35_forEach_throws_iff_not_named (behavior : Nat) (s : Ownership) :
    ibContains behavior s = none ↔ behavior ∉ [ibOwned, ibHalo, ibOwnedOrHalo, ibDummy, ibOwnedOrHaloOrDummy] := by
  unfold ibContains
  simp only [List.mem_cons, List.not_mem_nil, or_false, not_or]
  split_ifs <;> simp_all

/-- The box test is membership in the half-open box. -/
theorem C35_inBox_iff (p lo hi : V3 Rat) : inBoxB p lo hi = true ↔ InBox p lo hi := by
  simp [inBoxB, InBox, and_assoc]

-- `owned | forceSequential` as iterator behaviour and in `forEach`
example : fulfillsOwnership (ibOwned ||| ibForceSequential) .owned = true ∧
    fulfillsOwnership (ibOwned ||| ibForceSequential) .halo = false ∧
    ibContains (ibOwned ||| ibForceSequential) .owned = none := by decide
example : ibContains ibOwnedOrHalo .halo = some true := by decide
-- `halo | dummy` is only understood by iterators
example : fulfillsOwnership (ibHalo ||| ibDummy) .dummy = true ∧ fulfillsOwnership (ibHalo ||| ibDummy) .owned = false := by
  decide

end Verif
