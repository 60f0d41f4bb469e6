import Verif.Model.Outcome
import Mathlib.Analysis.SpecialFunctions.Log.Base
import Mathlib.Analysis.SpecialFunctions.Exp
/-!
Small helpers that everything else relies on: /repo/src/autopas/utils/Math.{h,cpp}, Timer.{h,cpp} and AlignedAllocator.h. Floating point numbers are real numbers,
so the overloads of `safeAdd`, `safeSub` and `safeMul` for floating point types are not modelled.
-/
namespace Verif

/-- `safeAdd` for a type of integers from `lo` to `hi`, Math.h:30-44. -/
def safeAddI (lo hi a b valUnderflow valOverflow : Int) : Int :=
  if lo ≤ a + b ∧ a + b ≤ hi then a + b else if a < 0 ∧ b < 0 then valUnderflow else valOverflow

/-- `safeSub`, Math.h:83-97. -/
def safeSubI (lo hi a b valUnderflow valOverflow : Int) : Int :=
  if lo ≤ a - b ∧ a - b ≤ hi then a - b else if b > 0 then valUnderflow else valOverflow

/-- `safeMul`, Math.h:136-150. -/
def safeMulI (lo hi a b valUnderflow valOverflow : Int) : Int :=
  if lo ≤ a * b ∧ a * b ≤ hi then a * b else if xor (decide (a < 0)) (decide (b < 0)) then valUnderflow else valOverflow

/-- The loop of `pow`, Math.h:194-196. -/
def mathPowLoop {R : Type} [Mul R] (base : R) : Nat → R → R
  | 0, res => res
  | n + 1, res => mathPowLoop base n (res * base)

/-- `pow`, Math.h:186-198. -/
def mathPow {R : Type} [Mul R] [One R] (exponent : Nat) (base : R) : R := if exponent = 0 then 1 else mathPowLoop base (exponent - 1) base

/-- `sigmoid`, Math.cpp:21-30. -/
noncomputable def mathSigmoid (x : ℝ) : ℝ := if x ≥ 0 then 1 / (1 + Real.exp (-x)) else Real.exp x / (1 + Real.exp x)

/-- `isNearRel`, Math.cpp:32-37. -/
def isNearRelR (a b maxRelativeDifference : ℝ) : Prop := |a - b| ≤ maxRelativeDifference * max |a| |b|

/-- `std::round`: halves away from zero. -/
noncomputable def roundAway (x : ℝ) : ℝ := if 0 ≤ x then (⌊x + 1 / 2⌋ : ℝ) else -(⌊-x + 1 / 2⌋ : ℝ)

/-- `roundFixed`, Math.cpp:41-44. -/
noncomputable def roundFixed (d : ℝ) (fixedPrecision : Int) : ℝ :=
  let factor := (10 : ℝ) ^ fixedPrecision
  roundAway (d * factor) / factor

/-- `roundFloating`, Math.cpp:46-54. -/
noncomputable def roundFloatingR (d : ℝ) (floatingPrecision : Int) : ℝ :=
  if d = 0 then d
  else
    let factor := (10 : ℝ) ^ (floatingPrecision - ⌈Real.logb 10 |d|⌉)
    roundAway (d * factor) / factor

/-! ### Timer -/

/-- Members of `Timer`, Timer.h:70-83. Times in nanoseconds. -/
structure Stopwatch where
  startTime : Int
  totalTime : Int
  running : Bool
deriving DecidableEq, Repr

/-- Calls of a timer; `start` and `stop` with the time of the clock. -/
inductive TimerOp
  | start (now : Int)
  | stop (now : Int)
  | reset
  | addTime (nanoseconds : Int)
deriving DecidableEq, Repr

/-- `start`, `stop`, `reset`, `addTime`, Timer.cpp:17-42; the return value of `stop`. -/
def Stopwatch.op (t : Stopwatch) : TimerOp → Outcome (Stopwatch × Option Int)
  | .start now => if t.running then .throws else .ok ({ t with running := true, startTime := now }, none)
  | .stop now =>
    if !t.running then .throws
    else
      let diff := now - t.startTime
      .ok ({ t with running := false, totalTime := t.totalTime + diff }, some diff)
  | .reset => .ok ({ t with totalTime := 0 }, none)
  | .addTime n => .ok ({ t with totalTime := t.totalTime + n }, none)

/-- A sequence of calls. -/
def Stopwatch.run (t : Stopwatch) : List TimerOp → Outcome Stopwatch
  | [] => .ok t
  | o :: os => (t.op o).bind fun r => r.1.run os

/-- The constructor. -/
def Stopwatch.new : Stopwatch := ⟨0, 0, false⟩

/-! ### AlignedAllocator -/

/-- `max_size`, AlignedAllocator.h:78; `size_t` has 64 bits. -/
def allocMaxSize (alignment sizeOfT : Nat) : Nat := (2 ^ 64 - 1 - alignment) / sizeOfT

/-- The size that `allocate` requests, AlignedAllocator.h:85-99, in arithmetic modulo 2^64; `none`: `std::bad_alloc`. -/
def allocRequest (alignment sizeOfT n : Nat) : Option Nat :=
  if n ≤ allocMaxSize alignment sizeOfT then
    let neededSize := sizeOfT * n % 2 ^ 64
    some (((neededSize + alignment) % 2 ^ 64 - 1) / alignment * alignment % 2 ^ 64)
  else none

end Verif
