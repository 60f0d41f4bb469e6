import Mathlib.Data.Nat.Digits.Lemmas
import Verif.Lemmas.CheckpointNumbers
import Verif.Model.MemoryProfiler
import Verif.Spec.MemoryProfiler
/-!
# C142: the reported memory usage
-/
namespace Verif

open Spec.MemoryProfiler

namespace MemoryUsage

theorem key_lit : "VmRSS".toList = ['V', 'm', 'R', 'S', 'S'] := by decide +kernel

theorem decimal_eq (n : Nat) : decimal n = natText n := rfl

theorem decimal_length_le {n : Nat} (h : n < 10000000) : (natText n).length ≤ 7 := by
  unfold natText
  split_ifs
  · simp
  · simpa using (Nat.digits_length_le_iff (b := 10) (k := 7) (by norm_num) n).2 (by norm_num; exact h)

theorem decimal_length_ge {n : Nat} (h : 10000000 ≤ n) : 8 ≤ (natText n).length := by
  unfold natText
  rw [if_neg (by omega)]
  by_contra hc
  have := (Nat.digits_length_le_iff (b := 10) (k := 7) (by norm_num) n).1 (by simp at hc; omega)
  norm_num at this
  omega

theorem find_none {needle : List Char} (hn : needle ≠ []) {line : List Char} (h : ¬ needle <:+: line) : findText needle line = none := by
  induction line with
  | nil => simp [findText, hn]
  | cons c r ih =>
    have h1 : ¬ needle <+: c :: r := fun hp => h hp.isInfix
    have h2 : ¬ needle <:+: r := fun hp => h (hp.trans (List.suffix_cons c r).isInfix)
    rw [findText, if_neg (by simpa using h1), ih h2]
    rfl

theorem scan_skip {pre rest : List (List Char)} (h : ∀ l ∈ pre, NoKey l) : scanStatus (pre ++ rest) = scanStatus rest := by
  induction pre with
  | nil => rfl
  | cons l pre ih =>
    rw [List.cons_append, scanStatus, key_lit, find_none (by simp) (h l (by simp))]
    exact ih fun x hx => h x (by simp [hx])

theorem find_key (r : List Char) : findText ['V', 'm', 'R', 'S', 'S'] (['V', 'm', 'R', 'S', 'S', ':', '\t'] ++ r) = some 0 := by
  simp [findText, List.isPrefixOf]

theorem blank_key (r : List Char) : findBlank (['V', 'm', 'R', 'S', 'S', ':', '\t'] ++ r) 0 =
    (r.findIdx? fun c => c = ' ' ∨ c = '\n').map (7 + ·) := by
  simp [findBlank, List.findIdx?_cons, Option.map_map, Function.comp_def]
  congr 1
  funext x
  omega

theorem scan_line (r : List Char) (post : List (List Char)) : scanStatus ((['V', 'm', 'R', 'S', 'S', ':', '\t'] ++ r) :: post) =
    .ok (strtolSize (match (r.findIdx? fun c => c = ' ' ∨ c = '\n').map (7 + ·) with | some n => r.take n | none => r)) := by
  rw [scanStatus, key_lit, find_key]
  dsimp only
  rw [blank_key]
  have h : ∀ n, substr (['V', 'm', 'R', 'S', 'S', ':', '\t'] ++ r) (0 + 7) n = .ok (match n with | some n => r.take n | none => r) := by
    intro n
    unfold substr
    rw [if_neg (by simp)]
    rfl
  rw [h]
  rfl

/-- Blanks and digits are read as the number. -/
theorem strtol_blanks (k : Nat) {ds rest : List Char} (hd : AllDigits ds) (hr : ∀ c t, rest = c :: t → isDigitChar c = false)
    (hds : ds = [] → rest = []) (hv : digitsVal ds ≤ 9223372036854775807) :
    strtolSize (List.replicate k ' ' ++ (ds ++ rest)) = digitsVal ds := by
  have hdrop : ∀ (l : List Char), List.dropWhile isSpaceChar (List.replicate k ' ' ++ l) = List.dropWhile isSpaceChar l := by
    intro l
    induction k with
    | zero => rfl
    | succ k ih =>
      rw [List.replicate_succ, List.cons_append, List.dropWhile_cons_of_pos (by decide)]
      exact ih
  rw [strtolSize, hdrop]
  cases ds with
  | nil =>
    rw [hds rfl]
    simp [scanSign, digitsVal]
  | cons c ds =>
    have hc := hd c (by simp)
    rw [List.cons_append, List.dropWhile_cons_of_neg (by rw [digit_not_space hc]; simp), scanSign_digit hc]
    dsimp only
    rw [← List.cons_append, (takeWhile_digits hd hr).1]
    simpa using hv

end MemoryUsage

open MemoryUsage

/-- From ten million kilobytes on, the number in the file is reported. Missing: smaller numbers. -/
theorem C142_partial {pre post : List (List Char)} (hpre : ∀ l ∈ pre, NoKey l) {k : Nat} (hk : 10000000 ≤ k) (hmax : k < 2 ^ 63) :
    currentMemoryUsage (some (pre ++ residentLine k :: post)) = .ok k := by
  rw [currentMemoryUsage]
  rw [scan_skip hpre, residentLine, decimal_eq, scan_line]
  have hl := decimal_length_ge hk
  have hz : 8 - (natText k).length = 0 := by omega
  have hnb : ∀ c ∈ natText k, ¬ (c = ' ' ∨ c = '\n') := by
    intro c hc h
    have := natText_digits k c hc
    rcases h with rfl | rfl <;> revert this <;> decide
  have hf : (natText k ++ [' ', 'k', 'B']).findIdx? (fun c => decide (c = ' ' ∨ c = '\n')) = some (natText k).length := by
    rw [List.findIdx?_append, List.findIdx?_eq_none_iff.2 (by intro c hc; simpa using hnb c hc)]
    simp [List.findIdx?_cons]
  rw [hz, List.replicate_zero, List.nil_append, hf]
  dsimp only [Option.map]
  have ht : (natText k ++ [' ', 'k', 'B']).take (7 + (natText k).length) = natText k ++ [' ', 'k', 'B'] := by
    apply List.take_of_length_le; simp; omega
  rw [ht]
  have := strtol_blanks 0 (rest := [' ', 'k', 'B']) (natText_digits k) (by intro c t h; cases h; decide) (fun h => absurd h (natText_ne_nil k))
    (by rw [digitsVal_natText]; norm_num at hmax; omega)
  rw [digitsVal_natText] at this
  exact congrArg Outcome.ok this

/-- Violated: below ten million kilobytes, the last digit is cut off and a tenth of the memory is reported. The position of the first blank is used as a number of
characters. -/
theorem C142_violated_digit {pre post : List (List Char)} (hpre : ∀ l ∈ pre, NoKey l) {k : Nat} (hk : k < 10000000) :
    currentMemoryUsage (some (pre ++ residentLine k :: post)) = .ok (k / 10) := by
  rw [currentMemoryUsage]
  rw [scan_skip hpre, residentLine, decimal_eq, scan_line]
  have hl := decimal_length_le hk
  obtain ⟨ds, c, hdc⟩ : ∃ ds c, natText k = ds ++ [c] := ⟨_, _, (List.dropLast_append_getLast (natText_ne_nil k)).symm⟩
  have hlen : (natText k).length = ds.length + 1 := by rw [hdc]; simp
  have hf : (List.replicate (8 - (natText k).length) ' ' ++ (natText k ++ [' ', 'k', 'B'])).findIdx? (fun c => decide (c = ' ' ∨ c = '\n')) = some 0 := by
    obtain ⟨m, hm⟩ : ∃ m, 8 - (natText k).length = m + 1 := ⟨7 - (natText k).length, by omega⟩
    rw [hm, List.replicate_succ, List.cons_append, List.findIdx?_cons]
    simp
  rw [hf]
  dsimp only [Option.map]
  have ht : (List.replicate (8 - (natText k).length) ' ' ++ (natText k ++ [' ', 'k', 'B'])).take (7 + 0) =
      List.replicate (8 - (natText k).length) ' ' ++ (ds ++ []) := by
    rw [hdc, List.append_nil, List.append_assoc, ← List.append_assoc _ ds]
    apply List.take_left'
    simp; omega
  rw [ht]
  have hv : digitsVal (ds ++ [c]) = k := by rw [← hdc, digitsVal_natText]
  rw [digitsVal_snoc] at hv
  have hc : isDigitChar c = true := natText_digits k c (by rw [hdc]; simp)
  have hc' := digit_toNat hc
  have hd : AllDigits ds := fun x hx => natText_digits k x (by rw [hdc]; simp [hx])
  rw [strtol_blanks _ hd (by simp) (fun _ => rfl) (by omega)]
  congr 1
  omega

/-- Without the file or the line, zero is reported. -/
theorem C142_missing : currentMemoryUsage none = .ok 0 ∧ ∀ lines : List (List Char), (∀ l ∈ lines, NoKey l) → currentMemoryUsage (some lines) = .ok 0 := by
  refine ⟨rfl, fun lines h => ?_⟩
  have := scan_skip (rest := []) h
  rw [List.append_nil] at this
  rw [currentMemoryUsage, this]; rfl

/-- Violated: the first line of the file is the name of the program. If it ends with the key, an exception is thrown. -/
theorem C142_violated_name (rest : List (List Char)) : currentMemoryUsage (some ("Name:\tVmRSS".toList :: rest)) = .throws := by
  have h1 : "Name:\tVmRSS".toList = ['N', 'a', 'm', 'e', ':', '\t', 'V', 'm', 'R', 'S', 'S'] := by decide +kernel
  rw [currentMemoryUsage, scanStatus, h1, key_lit]
  have h2 : findText ['V', 'm', 'R', 'S', 'S'] ['N', 'a', 'm', 'e', ':', '\t', 'V', 'm', 'R', 'S', 'S'] = some 6 := by decide +kernel
  rw [h2]
  rfl

/-- 5432 kilobytes are reported as 543. -/
example : residentLine 5432 = "VmRSS:\t    5432 kB".toList ∧ currentMemoryUsage (some [['N', 'a', 'm', 'e'], residentLine 5432]) = .ok 543 := by
  refine ⟨?_, C142_violated_digit (pre := [['N', 'a', 'm', 'e']]) ?_ (by norm_num)⟩
  · simp [residentLine, decimal]
  · intro l hl
    simp only [List.mem_singleton] at hl
    subst hl
    unfold NoKey
    decide

end Verif
