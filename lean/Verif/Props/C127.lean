import Verif.Model.Helpers
import Mathlib.Tactic.Linarith
import Mathlib.Tactic.Ring
import Mathlib.Tactic.FieldSimp
import Mathlib.Tactic.Positivity
import Mathlib.Algebra.BigOperators.Group.List.Basic
/-!
# C127 — arithmetic helpers, timers and aligned memory

Saturating integer arithmetic gives the exact result or the value for the side on which it leaves the type; rounding keeps the requested digits; the total of a
timer is the sum of the measured intervals; the size that is requested for aligned memory is never too small, never wraps around and is a multiple of the alignment.
-/
namespace Verif

/-- Sums that do not fit give the value for their side, whatever the type (signed or unsigned) and the operands. -/
theorem C127_safeAdd {lo hi a b : Int} (h0 : lo ≤ 0) (h1 : 0 ≤ hi) (ha : lo ≤ a ∧ a ≤ hi) (hb : lo ≤ b ∧ b ≤ hi) (u o : Int) :
    safeAddI lo hi a b u o = if a + b < lo then u else if hi < a + b then o else a + b := by
  unfold safeAddI
  split_ifs <;> omega

theorem C127_safeSub {lo hi a b : Int} (h0 : lo ≤ 0) (h1 : 0 ≤ hi) (ha : lo ≤ a ∧ a ≤ hi) (hb : lo ≤ b ∧ b ≤ hi) (u o : Int) :
    safeSubI lo hi a b u o = if a - b < lo then u else if hi < a - b then o else a - b := by
  unfold safeSubI
  split_ifs <;> omega

theorem C127_safeMul {lo hi : Int} (h0 : lo ≤ 0) (h1 : 0 ≤ hi) (a b u o : Int) :
    safeMulI lo hi a b u o = if a * b < lo then u else if hi < a * b then o else a * b := by
  unfold safeMulI
  by_cases ha : a < 0 <;> by_cases hb : b < 0
  · have := Int.mul_nonneg_of_nonpos_of_nonpos ha.le hb.le
    simp only [ha, hb, decide_true, Bool.xor_true, Bool.not_true, Bool.false_eq_true, if_false]
    split_ifs <;> omega
  · have := Int.mul_nonpos_of_nonpos_of_nonneg ha.le (not_lt.1 hb)
    simp only [ha, hb, decide_true, decide_false, Bool.xor_false, if_true]
    split_ifs <;> omega
  · have := Int.mul_nonpos_of_nonneg_of_nonpos (not_lt.1 ha) hb.le
    simp only [ha, hb, decide_true, decide_false, Bool.false_xor, if_true]
    split_ifs <;> omega
  · have := Int.mul_nonneg (not_lt.1 ha) (not_lt.1 hb)
    simp only [ha, hb, decide_false, Bool.xor_false, Bool.false_eq_true, if_false]
    split_ifs <;> omega

theorem mathPowLoop_eq {R : Type} [CommMonoid R] (b : R) : ∀ (n : Nat) (r : R), mathPowLoop b n r = r * b ^ n := by
  intro n
  induction n with
  | zero => intro r; simp [mathPowLoop]
  | succ n ih => intro r; unfold mathPowLoop; rw [ih, pow_succ', mul_assoc]

/-- `pow` is the power. -/
theorem C127_pow {R : Type} [CommMonoid R] (n : Nat) (b : R) : mathPow n b = b ^ n := by
  unfold mathPow
  split
  · next h => rw [h, pow_zero]
  · next h => rw [mathPowLoop_eq, ← pow_succ', Nat.sub_add_cancel (Nat.one_le_iff_ne_zero.2 h)]

/-- Both branches of `sigmoid` are the logistic function; it lies strictly between 0 and 1, increases, and is symmetric. -/
theorem C127_sigmoid (x : ℝ) : mathSigmoid x = 1 / (1 + Real.exp (-x)) ∧ 0 < mathSigmoid x ∧ mathSigmoid x < 1 ∧ mathSigmoid (-x) = 1 - mathSigmoid x ∧
    ∀ y, x < y → mathSigmoid x < mathSigmoid y := by
  have key : ∀ x : ℝ, mathSigmoid x = 1 / (1 + Real.exp (-x)) := by
    intro x
    unfold mathSigmoid
    split
    · rfl
    · have h := Real.exp_pos x
      rw [Real.exp_neg, div_eq_div_iff (by positivity) (by positivity)]
      field_simp
      ring
  have hp := Real.exp_pos (-x)
  refine ⟨key x, ?_, ?_, ?_, ?_⟩
  · rw [key]; positivity
  · rw [key, div_lt_one (by positivity)]; linarith
  · rw [key, key, neg_neg, Real.exp_neg]
    have h := Real.exp_pos x
    field_simp
    ring
  · intro y hxy
    rw [key, key]
    have h1 : Real.exp (-y) < Real.exp (-x) := Real.exp_lt_exp.2 (by linarith)
    have h2 := Real.exp_pos (-y)
    exact one_div_lt_one_div_of_lt (by linarith) (by linarith)

/-- Nearness is symmetric, holds for equal numbers, and does not depend on the unit. -/
theorem C127_isNearRel (a b m c : ℝ) (hm : 0 ≤ m) (hc : 0 < c) : (isNearRelR a b m ↔ isNearRelR b a m) ∧ isNearRelR a a m ∧
    (isNearRelR (c * a) (c * b) m ↔ isNearRelR a b m) := by
  refine ⟨by unfold isNearRelR; rw [abs_sub_comm, max_comm], ?_, ?_⟩
  · unfold isNearRelR; simp only [sub_self, abs_zero, max_self]; positivity
  · unfold isNearRelR
    rw [← mul_sub, abs_mul, abs_mul, abs_mul, abs_of_pos hc, ← mul_max_of_nonneg _ _ hc.le]
    constructor
    · intro h; exact le_of_mul_le_mul_left (by linarith [h, mul_left_comm m c (max |a| |b|)]) hc
    · intro h; have := mul_le_mul_of_nonneg_left h hc.le; linarith [mul_left_comm m c (max |a| |b|)]

theorem roundAway_spec (x : ℝ) : (∃ m : Int, roundAway x = m) ∧ |roundAway x - x| ≤ 1 / 2 := by
  unfold roundAway
  split
  · refine ⟨⟨_, rfl⟩, ?_⟩
    have h1 := Int.floor_le (x + 1 / 2)
    have h2 := Int.lt_floor_add_one (x + 1 / 2)
    rw [abs_le]; constructor <;> linarith
  · refine ⟨⟨-⌊-x + 1 / 2⌋, by push_cast; rfl⟩, ?_⟩
    have h1 := Int.floor_le (-x + 1 / 2)
    have h2 := Int.lt_floor_add_one (-x + 1 / 2)
    rw [abs_le]; constructor <;> linarith

theorem roundAway_int (m : Int) : roundAway m = m := by
  unfold roundAway
  split
  · have : ⌊(m : ℝ) + 1 / 2⌋ = m := by rw [Int.floor_eq_iff]; constructor <;> linarith
    rw [this]
  · have : ⌊-(m : ℝ) + 1 / 2⌋ = -m := by rw [Int.floor_eq_iff]; push_cast; constructor <;> linarith
    rw [this]; push_cast; ring

theorem roundAway_abs_le {x : ℝ} {n : Int} (h : |x| ≤ n) : |roundAway x| ≤ n := by
  have hn : (0 : ℝ) ≤ n := (abs_nonneg x).trans h
  unfold roundAway
  rw [abs_le] at h
  split
  · next h0 =>
    have h1 : (0 : Int) ≤ ⌊x + 1 / 2⌋ := Int.floor_nonneg.2 (by linarith)
    have h2 : ⌊x + 1 / 2⌋ ≤ n := by
      have : ⌊x + 1 / 2⌋ < n + 1 := Int.floor_lt.2 (by push_cast; linarith [h.2])
      omega
    rw [abs_of_nonneg (by exact_mod_cast h1)]; exact_mod_cast h2
  · next h0 =>
    have h1 : (0 : Int) ≤ ⌊-x + 1 / 2⌋ := Int.floor_nonneg.2 (by linarith)
    have h2 : ⌊-x + 1 / 2⌋ ≤ n := by
      have : ⌊-x + 1 / 2⌋ < n + 1 := Int.floor_lt.2 (by push_cast; linarith [h.1])
      omega
    rw [abs_neg, abs_of_nonneg (by exact_mod_cast h1)]; exact_mod_cast h2

/-- Rounding to `p` decimals: a multiple of `10^(-p)`, not further away than half of it; numbers with `p` decimals stay. -/
theorem C127_roundFixed (d : ℝ) (p : Int) : (∃ m : Int, roundFixed d p = m * 10 ^ (-p)) ∧ |roundFixed d p - d| ≤ 10 ^ (-p) / 2 ∧
    ∀ m : Int, d = m * 10 ^ (-p) → roundFixed d p = d := by
  have hf : (0 : ℝ) < 10 ^ p := zpow_pos (by norm_num) p
  have hn : (10 : ℝ) ^ (-p) = 1 / 10 ^ p := by rw [zpow_neg, one_div]
  obtain ⟨⟨m, hm⟩, hd⟩ := roundAway_spec (d * 10 ^ p)
  unfold roundFixed
  simp only
  refine ⟨⟨m, by rw [hm, hn, mul_one_div]⟩, ?_, ?_⟩
  · have : roundAway (d * 10 ^ p) / 10 ^ p - d = (roundAway (d * 10 ^ p) - d * 10 ^ p) / 10 ^ p := by field_simp
    rw [this, abs_div, abs_of_pos hf, hn, div_le_iff₀ hf]
    calc _ ≤ (1 : ℝ) / 2 := hd
      _ = 1 / 10 ^ p / 2 * 10 ^ p := by field_simp
  · intro m' hm'
    have : d * 10 ^ p = m' := by rw [hm', hn]; field_simp
    rw [this, roundAway_int, ← this]; field_simp

/-- Rounding to `p` significant digits: if `d` has `k` digits before the point, that is `10^(k-1) < |d| ≤ 10^k`, the result is a multiple `m` of `10^(k-p)`, not further
away than half of that, and `m` has at most `p` digits (or is `10^p`). Numbers that have `p` significant digits stay. -/
theorem C127_roundFloating {d : ℝ} {k p : Int} (h1 : (10 : ℝ) ^ (k - 1) < |d|) (h2 : |d| ≤ (10 : ℝ) ^ k) :
    (∃ m : Int, roundFloatingR d p = m * 10 ^ (k - p) ∧ (0 ≤ p → |(m : ℝ)| ≤ (10 : ℝ) ^ p)) ∧ |roundFloatingR d p - d| ≤ 10 ^ (k - p) / 2 ∧
      (∀ m : Int, d = m * 10 ^ (k - p) → roundFloatingR d p = d) ∧ (p < 0 → roundFloatingR d p = 0) := by
  have hd0 : d ≠ 0 := by rintro rfl; rw [abs_zero] at h1; exact absurd h1 (not_lt.2 (zpow_pos (by norm_num) _).le)
  have habs : 0 < |d| := abs_pos.2 hd0
  have hk : ⌈Real.logb 10 |d|⌉ = k := by
    rw [Int.ceil_eq_iff]
    constructor
    · rw [Real.lt_logb_iff_rpow_lt (by norm_num) habs]
      have : ((k : ℝ) - 1) = ((k - 1 : Int) : ℝ) := by push_cast; rfl
      rw [this, Real.rpow_intCast]; exact h1
    · rw [Real.logb_le_iff_le_rpow (by norm_num) habs, Real.rpow_intCast]; exact h2
  have hr : roundFloatingR d p = roundFixed d (p - k) := by unfold roundFloatingR roundFixed; rw [if_neg hd0, hk]
  have hneg : -(p - k) = k - p := by ring
  obtain ⟨-, b, c⟩ := C127_roundFixed d (p - k)
  rw [hneg] at b c
  have hf : (0 : ℝ) < 10 ^ (p - k) := zpow_pos (by norm_num) _
  have hscaled : |d * 10 ^ (p - k)| ≤ (10 : ℝ) ^ p := by
    rw [abs_mul, abs_of_pos hf]
    calc |d| * 10 ^ (p - k) ≤ 10 ^ k * 10 ^ (p - k) := mul_le_mul_of_nonneg_right h2 hf.le
      _ = 10 ^ p := by rw [← zpow_add₀ (by norm_num)]; congr 1; ring
  refine ⟨?_, by rw [hr]; exact b, fun m hm => by rw [hr]; exact c m hm, ?_⟩
  · obtain ⟨⟨m, hm⟩, -⟩ := roundAway_spec (d * 10 ^ (p - k))
    refine ⟨m, ?_, ?_⟩
    · rw [hr]
      unfold roundFixed
      simp only
      rw [hm, ← hneg, zpow_neg, div_eq_mul_inv]
    · intro hp
      rw [← hm]
      lift p to Nat using hp
      have e : ((10 : ℝ) ^ (p : Int)) = (((10 ^ p : Int)) : ℝ) := by push_cast; rw [zpow_natCast]
      rw [e] at hscaled ⊢
      exact roundAway_abs_le hscaled
  · intro hp
    rw [hr]
    unfold roundFixed
    simp only
    have hlt : |d * 10 ^ (p - k)| < 1 / 2 := by
      refine lt_of_le_of_lt hscaled ?_
      calc (10 : ℝ) ^ p ≤ 10 ^ (-1 : Int) := zpow_le_zpow_right₀ (by norm_num) (by omega)
        _ < 1 / 2 := by norm_num
    have hz : roundAway (d * 10 ^ (p - k)) = 0 := by
      rw [abs_lt] at hlt
      unfold roundAway
      split
      · next h0 =>
        have : ⌊d * 10 ^ (p - k) + 1 / 2⌋ = 0 := by rw [Int.floor_eq_iff]; push_cast; constructor <;> linarith [hlt.2]
        rw [this]; simp
      · next h0 =>
        have : ⌊-(d * 10 ^ (p - k)) + 1 / 2⌋ = 0 := by rw [Int.floor_eq_iff]; push_cast; constructor <;> linarith [hlt.1]
        rw [this]; simp
    rw [hz, zero_div]

/-! ### Timer -/

theorem stopwatch_append (t : Stopwatch) (a b : List TimerOp) : t.run (a ++ b) = (t.run a).bind fun u => u.run b := by
  induction a generalizing t with
  | nil => rfl
  | cons o os ih =>
    simp only [List.cons_append, Stopwatch.run]
    cases h : t.op o with
    | ok r => simp only [Outcome.bind]; exact ih r.1
    | _ => rfl

/-- What a user does between resets: measured intervals, and times that are added. -/
inductive TimerUse
  | interval (b e : Int)
  | added (n : Int)

def TimerUse.ops : TimerUse → List TimerOp
  | .interval b e => [.start b, .stop e]
  | .added n => [.addTime n]

def TimerUse.amount : TimerUse → Int
  | .interval b e => e - b
  | .added n => n

/-- The total time is the sum of all intervals and additions; an interval that is running is added when it is stopped. -/
theorem C127_timer_total (t : Stopwatch) (h : t.running = false) (uses : List TimerUse) :
    ∃ u, t.run (uses.flatMap TimerUse.ops) = .ok u ∧ u.running = false ∧ u.totalTime = t.totalTime + (uses.map TimerUse.amount).sum ∧
      ∀ b e, ∃ v, u.run [.start b, .stop e] = .ok v ∧ v.totalTime = t.totalTime + (uses.map TimerUse.amount).sum + (e - b) := by
  have main : ∃ u, t.run (uses.flatMap TimerUse.ops) = .ok u ∧ u.running = false ∧ u.totalTime = t.totalTime + (uses.map TimerUse.amount).sum := by
    induction uses generalizing t with
    | nil => exact ⟨t, rfl, h, by simp⟩
    | cons a as ih =>
      rw [List.flatMap_cons, stopwatch_append]
      cases a with
      | interval b e =>
        obtain ⟨u, h1, h2, h3⟩ := ih ⟨b, t.totalTime + (e - b), false⟩ rfl
        refine ⟨u, ?_, h2, ?_⟩
        · have : t.run (TimerUse.interval b e).ops = .ok ⟨b, t.totalTime + (e - b), false⟩ := by
            simp [TimerUse.ops, Stopwatch.run, Stopwatch.op, h, Outcome.bind]
          rw [this]; exact h1
        · rw [h3]; simp only [List.map_cons, List.sum_cons, TimerUse.amount]; omega
      | added n =>
        obtain ⟨u, h1, h2, h3⟩ := ih ⟨t.startTime, t.totalTime + n, t.running⟩ h
        refine ⟨u, ?_, h2, ?_⟩
        · have : t.run (TimerUse.added n).ops = .ok ⟨t.startTime, t.totalTime + n, t.running⟩ := rfl
          rw [this]; exact h1
        · rw [h3]; simp only [List.map_cons, List.sum_cons, TimerUse.amount]; omega
  obtain ⟨u, h1, h2, h3⟩ := main
  refine ⟨u, h1, h2, h3, fun b e => ⟨⟨b, u.totalTime + (e - b), false⟩, by simp [Stopwatch.run, Stopwatch.op, h2, Outcome.bind], by simp only [h3]⟩⟩

/-- `+1` per start, `-1` per stop. -/
def timerDepth : List TimerOp → Int
  | [] => 0
  | .start _ :: os => 1 + timerDepth os
  | .stop _ :: os => -1 + timerDepth os
  | _ :: os => timerDepth os

/-- A new timer accepts a sequence of calls exactly if every beginning of it has as many stops as starts, or one less; that is, starts and stops alternate. -/
theorem C127_timer_accepts (ops : List TimerOp) :
    (∃ u, Stopwatch.new.run ops = .ok u) ↔ ∀ a, a <+: ops → timerDepth a = 0 ∨ timerDepth a = 1 := by
  have key : ∀ (ops : List TimerOp) (t : Stopwatch), (∃ u, t.run ops = .ok u) ↔
      ∀ a, a <+: ops → (if t.running then 1 else 0) + timerDepth a = 0 ∨ (if t.running then 1 else 0) + timerDepth a = 1 := by
    intro ops
    induction ops with
    | nil =>
      intro t
      refine ⟨fun _ a ha => ?_, fun _ => ⟨t, rfl⟩⟩
      rw [List.prefix_nil] at ha; subst ha
      cases t.running <;> simp [timerDepth]
    | cons o os ih =>
      intro t
      have hcons : ∀ P : List TimerOp → Prop, (∀ a, a <+: o :: os → P a) ↔ P [] ∧ ∀ a, a <+: os → P (o :: a) := by
        intro P
        refine ⟨fun h => ⟨h [] (List.nil_prefix), fun a ha => h (o :: a) (List.cons_prefix_cons.2 ⟨rfl, ha⟩)⟩, fun h a ha => ?_⟩
        cases a with
        | nil => exact h.1
        | cons x xs => obtain ⟨rfl, h2⟩ := List.cons_prefix_cons.1 ha; exact h.2 xs h2
      rw [hcons]
      have h0 : ((if t.running then (1 : Int) else 0) + timerDepth [] = 0 ∨ (if t.running then (1 : Int) else 0) + timerDepth [] = 1) := by
        cases t.running <;> simp [timerDepth]
      simp only [h0, true_and]
      unfold Stopwatch.run
      cases o with
      | start now =>
        cases hr : t.running with
        | true =>
          have e : t.op (.start now) = .throws := by simp [Stopwatch.op, hr]
          rw [e]
          refine ⟨fun ⟨u, hu⟩ => by simp [Outcome.bind] at hu, fun h => ?_⟩
          have := h [] List.nil_prefix
          simp [timerDepth] at this
        | false =>
          have e : t.op (.start now) = .ok ({ t with running := true, startTime := now }, none) := by simp [Stopwatch.op, hr]
          rw [e]
          simp only [Outcome.bind]
          rw [ih]
          simp [timerDepth]
      | stop now =>
        cases hr : t.running with
        | false =>
          have e : t.op (.stop now) = .throws := by simp [Stopwatch.op, hr]
          rw [e]
          refine ⟨fun ⟨u, hu⟩ => by simp [Outcome.bind] at hu, fun h => ?_⟩
          have := h [] List.nil_prefix
          simp [timerDepth] at this
        | true =>
          have e : t.op (.stop now) = .ok ({ t with running := false, totalTime := t.totalTime + (now - t.startTime) }, some (now - t.startTime)) := by simp [Stopwatch.op, hr]
          rw [e]
          simp only [Outcome.bind]
          rw [ih]
          simp [timerDepth]
      | reset =>
        simp only [Stopwatch.op, Outcome.bind]
        rw [ih]
        simp [timerDepth]
      | addTime n =>
        simp only [Stopwatch.op, Outcome.bind]
        rw [ih]
        simp [timerDepth]
  have := key ops .new
  simpa [Stopwatch.new] using this

/-- Resetting a timer that is not running makes it as new as far as totals go; resetting one that runs does not shorten the running interval. -/
theorem C127_timer_reset (t : Stopwatch) (b e : Int) :
    (t.running = false → ∀ uses : List TimerUse, ∃ u, t.run (.reset :: uses.flatMap TimerUse.ops) = .ok u ∧ u.totalTime = (uses.map TimerUse.amount).sum) ∧
    (t.running = false → ∃ u, t.run [.start b, .reset, .stop e] = .ok u ∧ u.totalTime = e - b) := by
  refine ⟨fun h uses => ?_, fun h => ⟨⟨b, 0 + (e - b), false⟩, by simp [Stopwatch.run, Stopwatch.op, h, Outcome.bind], by simp⟩⟩
  obtain ⟨u, h1, -, h3, -⟩ := C127_timer_total ⟨t.startTime, 0, t.running⟩ h uses
  exact ⟨u, h1, by rw [h3]; simp⟩

/-! ### Memory -/

/-- A request that is made is a multiple of the alignment, large enough for all elements, less than one alignment larger, and was computed without wrapping around.
Requests that could wrap are refused. -/
theorem C127_allocate {alignment sizeOfT n : Nat} (ha : 0 < alignment) (ha' : alignment < 2 ^ 64) (hs : 0 < sizeOfT) :
    (∀ r, allocRequest alignment sizeOfT n = some r → alignment ∣ r ∧ sizeOfT * n ≤ r ∧ r < sizeOfT * n + alignment ∧ r < 2 ^ 64) ∧
      (allocRequest alignment sizeOfT n = none → 2 ^ 64 ≤ sizeOfT * n + alignment) := by
  unfold allocRequest allocMaxSize
  simp only [Nat.le_div_iff_mul_le hs, Nat.mul_comm n sizeOfT]
  generalize sizeOfT * n = m
  split
  · next h =>
    refine ⟨fun r hr => ?_, fun hr => by cases hr⟩
    have hm : m % 2 ^ 64 = m := Nat.mod_eq_of_lt (by omega)
    simp only [Option.some.injEq] at hr
    rw [hm, Nat.mod_eq_of_lt (a := m + alignment) (by omega)] at hr
    have h1 := Nat.div_add_mod (m + alignment - 1) alignment
    have h2 := Nat.mod_lt (m + alignment - 1) ha
    rw [Nat.mul_comm alignment] at h1
    have hlt : (m + alignment - 1) / alignment * alignment < 2 ^ 64 := by omega
    rw [Nat.mod_eq_of_lt hlt] at hr
    subst hr
    exact ⟨Nat.dvd_mul_left _ _, by omega, by omega, hlt⟩
  · next h => exact ⟨fun r hr => (by cases hr), fun _ => by omega⟩

/-! ### Examples -/

example : safeAddI (-128) 127 100 100 (-128) 127 = 127 := by decide
example : safeSubI 0 255 3 5 0 255 = 0 := by decide
example : safeMulI (-128) 127 (-20) 20 (-128) 127 = -128 := by decide
example : roundFloatingR 123 2 = 120 := by
  have h := (C127_roundFloating (d := 123) (k := 3) (p := 2) (by norm_num) (by norm_num)).1
  have h2 := (C127_roundFloating (d := 123) (k := 3) (p := 2) (by norm_num) (by norm_num)).2.1
  obtain ⟨m, hm, -⟩ := h
  rw [hm] at h2 ⊢
  norm_num at h2 ⊢
  rw [abs_le] at h2
  have h3 : (11 : ℝ) < m := by linarith [h2.1]
  have h4 : (m : ℝ) < 13 := by linarith [h2.2]
  have h5 : m = 12 := by have a : (11 : Int) < m := by exact_mod_cast h3
                         have b : m < (13 : Int) := by exact_mod_cast h4
                         omega
  rw [h5]; norm_num
example : (Stopwatch.new.run [.start 5, .stop 9, .addTime 100, .start 20, .stop 21]).bind (fun u => .ok u.totalTime) = .ok 105 := rfl
example : Stopwatch.new.run [.start 5, .start 6] = .throws := rfl
example : allocRequest 64 8 9 = some 128 := by decide
example : allocRequest 64 8 (2 ^ 61) = none := by decide

end Verif
