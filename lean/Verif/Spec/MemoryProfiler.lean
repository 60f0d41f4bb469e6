import Mathlib.Data.List.Basic
import Mathlib.Data.Nat.Digits.Defs
/-! The line about resident memory in the status file of a Linux process (proc(5); fs/proc/task_mmu.c: `seq_put_decimal_ull_width` with width 8). -/
namespace Verif.Spec.MemoryProfiler

/-- The decimal digits of a number. -/
def decimal (n : Nat) : List Char := if n = 0 then ['0'] else (Nat.digits 10 n).reverse.map fun d => Char.ofNat (48 + d)

/-- The line: name, colon, tab, the number of kilobytes aligned to the right in eight columns, and the unit. -/
def residentLine (kilobytes : Nat) : List Char :=
  ['V', 'm', 'R', 'S', 'S', ':', '\t'] ++ (List.replicate (8 - (decimal kilobytes).length) ' ' ++ (decimal kilobytes ++ [' ', 'k', 'B']))

/-- The key does not appear in a line. -/
def NoKey (line : List Char) : Prop := ¬ ['V', 'm', 'R', 'S', 'S'] <:+: line

end Verif.Spec.MemoryProfiler
