import Verif.Model.Checkpoint
/-!
# Reading the memory usage

`currentMemoryUsage` for Linux, /repo/src/autopas/utils/MemoryProfiler.cpp:9-29. The status file of the process is a list of lines without line ends.
-/
namespace Verif

/-- `line.find(needle)`: the first position. -/
def findText (needle : List Char) : List Char → Option Nat
  | [] => if needle = [] then some 0 else none
  | c :: r => if needle.isPrefixOf (c :: r) then some 0 else (findText needle r).map (· + 1)

/-- `line.find_first_of(" \n", start)`. -/
def findBlank (line : List Char) (start : Nat) : Option Nat :=
  ((line.drop start).findIdx? fun c => c = ' ' ∨ c = '\n').map (start + ·)

/-- `line.substr(pos, count)`: the second argument is a number of characters, `none` is `npos`; throws `std::out_of_range`. -/
def substr (line : List Char) (pos : Nat) (count : Option Nat) : Outcome (List Char) :=
  if pos > line.length then .throws else .ok (match count with | some n => (line.drop pos).take n | none => line.drop pos)

/-- `(size_t)std::strtol(text, nullptr, 10)`: blanks and a sign are skipped, digits read; 0 without digits. Values are cut off at the limits of `long`. -/
def strtolSize (text : List Char) : Nat :=
  let s := scanSign (text.dropWhile isSpaceChar)
  let n := digitsVal (s.2.takeWhile isDigitChar)
  if s.1 then (18446744073709551616 - min n 9223372036854775808) % 18446744073709551616 else min n 9223372036854775807

/-- The loop of MemoryProfiler.cpp:18-29. -/
def scanStatus : List (List Char) → Outcome Nat
  | [] => .ok 0
  | line :: rest => match findText "VmRSS".toList line with
    | some start => (substr line (start + 7) (findBlank line start)).bind fun t => .ok (strtolSize t)
    | none => scanStatus rest

/-- `currentMemoryUsage`, MemoryProfiler.cpp:9-29; `none`: the file cannot be opened. -/
def currentMemoryUsage (file : Option (List (List Char))) : Outcome Nat := match file with
  | none => .ok 0
  | some lines => scanStatus lines

end Verif
