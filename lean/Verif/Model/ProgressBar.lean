import Verif.Model.Outcome
import Mathlib.Data.Rat.Floor
/-!
# The progress bar of md-flexible

/repo/examples/md-flexible/src/Simulation.cpp:43-80 (`getTerminalWidth`), 367-411 (`printProgress`). `double` is represented by `Rat`. The stream prints
the rounded percentage as a whole number: above 999999 the default precision of the stream would switch to the scientific notation, which is left out.
-/
namespace Verif

/-- The decimal digits that a stream or `std::to_string` writes. -/
def decimalText (n : Nat) : List Char := (toString n).toList

/-- `std::setw(w)` for the next item of a stream with the default alignment: filled with blanks from the left, never cut. -/
def setw (w : Nat) (t : List Char) : List Char := List.replicate (w - t.length) ' ' ++ t

/-- Conversion to `size_t`. -/
def toSize (x : Int) : Nat := (x % 18446744073709551616).toNat

/-- Conversion of a `size_t` to `int`. -/
def sizeToInt (x : Nat) : Int := let y := (x : Int) % 4294967296; if y < 2147483648 then y else y - 4294967296

/-- Subtraction of `size_t`. -/
def wrapSub (a b : Nat) : Nat := toSize ((a : Int) - b)

/-- `std::string(n, c)` with an `int` as count: a negative one becomes larger than any string, and the constructor throws. -/
def stringOf (n : Int) (c : Char) : Outcome (List Char) := if n < 0 then .throws else .ok (List.replicate n.toNat c)

/-- Conversion of a floating point number to `int`: towards zero; undefined when the result does not fit. -/
def toInt32 (x : Rat) : Outcome Int :=
  let y := if 0 ≤ x then ⌊x⌋ else ⌈x⌉
  if -2147483648 ≤ y ∧ y < 2147483648 then .ok y else .ub

/-- `getTerminalWidth`, Simulation.cpp:43-80: the width the system reports if one of the standard pipes is a terminal, else the number `strtol` reads in the
environment variable `COLUMNS`, else 80. -/
def getTerminalWidth (tty : Option Nat) (columns : Option Int) : Nat :=
  let w := tty.getD 0
  let w := if w = 0 then (match columns with | some c => toSize c | none => w) else w
  if w = 0 then 80 else w

/-- The text behind the bar, Simulation.cpp:369-382. -/
def progressInfo (progress max : Nat) (precise : Bool) : List Char :=
  let fractionDone : Rat := progress / max
  let numChars := (decimalText max).length
  setw 3 (decimalText ⌊fractionDone * 100 + 1 / 2⌋.toNat) ++ "% ".toList ++ setw numChars (decimalText progress) ++ "/".toList ++
    (if precise then [] else "~".toList) ++ decimalText max

/-- What a call of `printProgress` does. -/
inductive ProgressOut
  /-- a warning, and the bar is switched off -/
  | disabled
  /-- the line, behind the returns that clear the last one -/
  | line (l : List Char)

/-- `printProgress`, Simulation.cpp:367-411, on a terminal of the width `tw`. `0 / 0` is undefined: the conversion of NaN to `int`. -/
def printProgress (tw progress max : Nat) (precise : Bool) : Outcome ProgressOut :=
  if max = 0 then .ub else
  let fractionDone : Rat := progress / max
  let info := progressInfo progress max precise
  let maxBarWidth := sizeToInt (wrapSub (wrapSub (wrapSub tw info.length) 1) 2)
  if toSize maxBarWidth > tw then .ok .disabled else
  (toInt32 (maxBarWidth * fractionDone)).bind fun w =>
    let barWidth := Max.max (Min.min w maxBarWidth) 1
    (if progress ≥ max then stringOf barWidth '='
     else (stringOf (barWidth - 1) '=').bind fun a => (stringOf (maxBarWidth - barWidth) ' ').bind fun b => .ok (a ++ ['>'] ++ b)).bind fun bar =>
    -- `std::string(terminalWidth, '\r')`
    if tw ≥ 9223372036854775808 then .throws else
    .ok (.line ("[".toList ++ bar ++ "] ".toList ++ info))

end Verif
