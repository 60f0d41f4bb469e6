import Verif.Spec.ProgressBar
import Mathlib.Tactic.Linarith
import Mathlib.Tactic.Push
import Mathlib.Algebra.Order.Field.Rat
/-!
# C137: the progress bar fills the terminal and never disturbs the simulation
-/
namespace Verif
open Spec

/-- The text: percentage, progress aligned with the maximum, maximum, marked with `~` when it is an estimate. -/
theorem C137_text (progress max : Nat) (precise : Bool) (hm : 0 < max) :
    progressInfo progress max precise =
      setw 3 (decimalText (percent progress max)) ++ ['%', ' '] ++ setw (decimalText max).length (decimalText progress) ++ ['/'] ++
        (if precise then [] else ['~']) ++ decimalText max := by
  have h : ⌊((progress : Rat) / (max : Rat)) * 100 + 1 / 2⌋.toNat = percent progress max := by
    have h1 : ((progress : Rat) / (max : Rat)) * 100 + 1 / 2 = ((200 * progress + max : Nat) : Rat) / ((2 * max : Nat) : Rat) := by
      have : (max : Rat) ≠ 0 := by exact_mod_cast (by omega : max ≠ 0)
      push_cast
      field_simp
      ring
    rw [h1, Rat.floor_natCast_div_natCast]
    rfl
  simp only [progressInfo, h]
  rfl

private theorem wrapSub_three (a b : Nat) : wrapSub (wrapSub (wrapSub a b) 1) 2 = toSize ((a : Int) - b - 3) := by
  have h : ∀ x : Int, ((toSize x : Nat) : Int) = x % 18446744073709551616 := by
    intro x
    unfold toSize
    omega
  have h' : ∀ x y : Int, toSize (((toSize x : Nat) : Int) - y) = toSize (x - y) := by
    intro x y
    rw [h]
    unfold toSize
    rw [Int.emod_sub_emod]
  unfold wrapSub
  rw [h']
  have e : ((toSize ((a : Int) - b) : Nat) : Int) - (1 : Nat) - (2 : Nat) = ((toSize ((a : Int) - b) : Nat) : Int) - 3 := by omega
  rw [e, h']

private theorem int_small (x : Int) (h : -2147483648 ≤ x) (h2 : x < 2147483648) : sizeToInt (toSize x) = x := by
  have h1 : ((toSize x : Nat) : Int) = x % 18446744073709551616 := by unfold toSize; omega
  have h3 : x % 18446744073709551616 % 4294967296 = x % 4294967296 := by omega
  unfold sizeToInt
  simp only [h1, h3]
  split <;> omega

private theorem toSize_pos (x : Int) (h : 0 ≤ x) (h2 : x < 18446744073709551616) : toSize x = x.toNat := by
  unfold toSize
  omega

private theorem toSize_neg (x : Int) (h : x < 0) (h2 : -18446744073709551616 ≤ x) : toSize x = (x + 18446744073709551616).toNat := by
  unfold toSize
  omega

private theorem le_mul_of_le_one_right' {a b : Rat} (ha : a ≤ 0) (hb : b ≤ 1) : a ≤ a * b := by
  nlinarith

private theorem stringOf_neg {n : Int} (h : n < 0) (c : Char) : stringOf n c = .throws := by rw [stringOf, if_pos h]

private theorem toInt32_ok (x : Rat) (w : Int) (h : (if 0 ≤ x then ⌊x⌋ else ⌈x⌉) = w) (h1 : -2147483648 ≤ w) (h2 : w < 2147483648) :
    toInt32 x = .ok w := by
  unfold toInt32
  simp only [h]
  rw [if_pos ⟨h1, h2⟩]

private theorem printProgress_eq {tw progress max : Nat} {precise : Bool} {B w : Int} (hm0 : max ≠ 0)
    (h1 : sizeToInt (wrapSub (wrapSub (wrapSub tw (progressInfo progress max precise).length) 1) 2) = B) (h3 : ¬ toSize B > tw)
    (h5 : toInt32 ((B : Rat) * ((progress : Rat) / (max : Rat))) = .ok w) :
    printProgress tw progress max precise =
      ((if progress ≥ max then stringOf (Max.max (Min.min w B) 1) '='
        else (stringOf (Max.max (Min.min w B) 1 - 1) '=').bind fun a =>
          (stringOf (B - Max.max (Min.min w B) 1) ' ').bind fun b => .ok (a ++ ['>'] ++ b)).bind fun bar =>
        if tw ≥ 9223372036854775808 then .throws else .ok (.line ("[".toList ++ bar ++ "] ".toList ++ progressInfo progress max precise))) := by
  unfold printProgress
  rw [if_neg hm0]
  subst h1
  simp only
  rw [if_neg h3, h5]
  rfl
/-- On every terminal that is wide enough for the text and a bar of one column: the line fills it exactly. Missing: the width for which no column is left
(`C137_violated_width`), and negative `COLUMNS` (`C137_violated_columns`). -/
theorem C137_partial (tw progress max : Nat) (precise : Bool) (hm : 0 < max) (htw : tw < 2147483648)
    (hfit : (progressInfo progress max precise).length + 3 < tw) (hp : progress * (tw : Int) < max * 2147483648) :
    ∃ l, printProgress tw progress max precise = .ok (.line l) ∧ FullLine tw progress max (progressInfo progress max precise) l := by
  generalize hinfo : progressInfo progress max precise = info at hfit
  obtain ⟨M, hM⟩ : ∃ M : Nat, tw = M + 1 + info.length + 3 := ⟨tw - info.length - 4, by omega⟩
  have h1 : sizeToInt (wrapSub (wrapSub (wrapSub tw info.length) 1) 2) = (M : Int) + 1 := by
    rw [wrapSub_three, int_small _ (by omega) (by omega)]
    omega
  have h3 : toSize ((M : Int) + 1) = M + 1 := by
    rw [toSize_pos _ (by omega) (by omega)]
    omega
  have h4 : ¬ (M + 1 > tw) := by omega
  have hm0 : max ≠ 0 := by omega
  -- the filled part
  obtain ⟨w, hwdef⟩ : ∃ w : Nat, w = ((M + 1) * progress) / max := ⟨_, rfl⟩
  have hfl : ⌊(((M : Int) + 1 : Int) : Rat) * ((progress : Rat) / (max : Rat))⌋ = (w : Int) := by
    have : (((M : Int) + 1 : Int) : Rat) * ((progress : Rat) / (max : Rat)) = (((M + 1) * progress : Nat) : Rat) / ((max : Nat) : Rat) := by
      push_cast
      ring
    rw [this, Rat.floor_natCast_div_natCast, hwdef]
    rfl
  have hpos : (0 : Rat) ≤ (((M : Int) + 1 : Int) : Rat) * ((progress : Rat) / (max : Rat)) := by
    have : (0 : Rat) ≤ (((M : Int) + 1 : Int) : Rat) := by exact_mod_cast (by omega : (0 : Int) ≤ (M : Int) + 1)
    exact mul_nonneg this (div_nonneg (Nat.cast_nonneg _) (Nat.cast_nonneg _))
  have hwlt : w < 2147483648 := by
    rw [hwdef]
    apply (Nat.div_lt_iff_lt_mul hm).2
    have : (progress * tw : Nat) < max * 2147483648 := by exact_mod_cast hp
    calc (M + 1) * progress ≤ tw * progress := Nat.mul_le_mul_right _ (by omega)
      _ = progress * tw := Nat.mul_comm _ _
      _ < max * 2147483648 := this
      _ = 2147483648 * max := Nat.mul_comm _ _
  have h5 : toInt32 ((((M : Int) + 1 : Int) : Rat) * ((progress : Rat) / (max : Rat))) = .ok (w : Int) := by
    exact toInt32_ok _ _ (by rw [if_pos hpos, hfl]) (by omega) (by omega)
  have hwle : w * max ≤ (M + 1) * progress := by rw [hwdef]; exact Nat.div_mul_le_self _ _
  have hwgt : (M + 1) * progress < (w + 1) * max := by
    have := Nat.lt_mul_div_succ ((M + 1) * progress) hm
    rw [Nat.mul_comm max] at this
    rw [hwdef]
    exact this
  have hlen : ¬ tw ≥ 9223372036854775808 := by omega
  have h1' : sizeToInt (wrapSub (wrapSub (wrapSub tw (progressInfo progress max precise).length) 1) 2) = (M : Int) + 1 := by rw [hinfo]; exact h1
  rw [printProgress_eq hm0 h1' (by rw [h3]; exact h4) h5, hinfo]
  simp only [hlen, if_false]
  clear hlen hp htw hwlt h1 h1' h3 h5 hpos hfl
  by_cases hge : max ≤ progress
  · have hw : M + 1 ≤ w := by
      rw [hwdef]
      apply (Nat.le_div_iff_mul_le hm).2
      exact Nat.mul_le_mul_left _ hge
    have hb : Max.max (Min.min (w : Int) ((M : Int) + 1)) 1 = (M : Int) + 1 := by omega
    rw [hb, if_pos hge]
    have hs : stringOf ((M : Int) + 1) '=' = .ok (List.replicate (M + 1) '=') := by
      simp only [stringOf]
      rw [if_neg (by omega)]
      rfl
    rw [hs]
    refine ⟨_, rfl, ⟨?_, M + 1, 0, M + 1, by omega, ?_, fun _ => ⟨rfl, rfl⟩, fun h => absurd h (by omega)⟩⟩
    · simp
      omega
    · rw [if_neg (by omega)]
      simp
  · have hlt : progress < max := by omega
    have hw : w < M + 1 := by
      rw [hwdef]
      apply (Nat.div_lt_iff_lt_mul hm).2
      exact Nat.mul_lt_mul_of_pos_left hlt (by omega)
    obtain ⟨d, hd, hd'⟩ : ∃ d : Nat, Max.max (Min.min (w : Int) ((M : Int) + 1)) 1 = (d : Int) + 1 ∧ d = w - 1 := ⟨w - 1, by omega, rfl⟩
    rw [hd, if_neg hge]
    have hs1 : stringOf ((d : Int) + 1 - 1) '=' = .ok (List.replicate d '=') := by
      have : (d : Int) + 1 - 1 = d := by omega
      rw [this, stringOf, if_neg (by omega)]
      rfl
    have hs2 : stringOf ((M : Int) + 1 - ((d : Int) + 1)) ' ' = .ok (List.replicate (M - d) ' ') := by
      have : (M : Int) + 1 - ((d : Int) + 1) = ((M - d : Nat) : Int) := by omega
      rw [this, stringOf, if_neg (by omega)]
      rfl
    rw [hs1, hs2]
    refine ⟨_, rfl, ⟨?_, d, M - d, M + 1, by omega, ?_, fun h => absurd h (by omega), fun _ => ⟨by omega, ?_, ?_⟩⟩⟩
    · simp
      omega
    · rw [if_pos hlt]
      simp
    · rcases Nat.eq_zero_or_pos d with h | h
      · exact Or.inl h
      · right
        have : d + 1 = w := by omega
        rw [this]
        exact hwle
    · refine Nat.lt_of_lt_of_le hwgt (Nat.mul_le_mul_right _ (by omega))

/-- A terminal that is too narrow for the text: the bar is switched off. -/
theorem C137_narrow (tw progress max : Nat) (precise : Bool) (hm : 0 < max)
    (hn : tw < (progressInfo progress max precise).length + 3) (hi : (progressInfo progress max precise).length < 1073741824) :
    printProgress tw progress max precise = .ok .disabled := by
  generalize hinfo : progressInfo progress max precise = info at hn hi
  have hm0 : max ≠ 0 := by omega
  have h1 : toSize (sizeToInt (wrapSub (wrapSub (wrapSub tw info.length) 1) 2)) > tw := by
    rw [wrapSub_three, int_small _ (by omega) (by omega), toSize_neg _ (by omega) (by omega)]
    omega
  simp only [printProgress, hm0, if_false, hinfo, h1, if_true]

/-- A terminal with exactly one column less than a bar needs ends the simulation with an exception in its first iteration. -/
theorem C137_violated_width (progress max : Nat) (precise : Bool) (hp : progress < max) (hi : (progressInfo progress max precise).length < 1073741824) :
    printProgress ((progressInfo progress max precise).length + 3) progress max precise = .throws := by
  generalize hinfo : progressInfo progress max precise = info at hi
  have hm0 : max ≠ 0 := by omega
  have h1 : sizeToInt (wrapSub (wrapSub (wrapSub (info.length + 3) info.length) 1) 2) = 0 := by
    rw [wrapSub_three, int_small _ (by omega) (by omega)]
    omega
  have h2 : ¬ (toSize 0 > info.length + 3) := by simp [toSize]
  have h3 : toInt32 (((0 : Int) : Rat) * ((progress : Rat) / (max : Rat))) = .ok 0 := by
    exact toInt32_ok _ _ (by simp) (by omega) (by omega)
  have h4 : ¬ (progress ≥ max) := by omega
  rw [← hinfo] at h1
  rw [hinfo.symm, printProgress_eq hm0 h1 (by rw [hinfo]; exact h2) h3, if_neg h4]
  have e1 : (0 : Int) - Max.max (Min.min (0 : Int) 0) 1 = -1 := by omega
  have e2 : Max.max (Min.min (0 : Int) 0) 1 - 1 = 0 := by omega
  rw [e1, e2, stringOf_neg (n := -1) (by omega)]
  have : stringOf 0 '=' = .ok [] := by rfl
  rw [this]
  rfl

/-- `COLUMNS=13 md-flexible --iterations 10 … > log`: 10% after the first iteration. -/
theorem C137_violated_columns_13 : printProgress (getTerminalWidth none (some 13)) 1 10 true = .throws := by
  have h := C137_violated_width 1 10 true (by omega)
  have hl : (progressInfo 1 10 true).length = 10 := by
    rw [C137_text 1 10 true (by omega)]
    decide +kernel
  rw [hl] at h
  exact h (by omega)

/-- A negative `COLUMNS` is a huge width, and building the bar throws. -/
theorem C137_violated_columns (c : Int) (hc : c < 0) (hc' : -1073741824 < c) (progress max : Nat) (precise : Bool) (hp : progress < max)
    (hi : (progressInfo progress max precise).length < 536870912) :
    printProgress (getTerminalWidth none (some c)) progress max precise = .throws := by
  generalize hinfo : progressInfo progress max precise = info at hi
  have hm0 : max ≠ 0 := by omega
  have ht : getTerminalWidth none (some c) = (c + 18446744073709551616).toNat := by
    have h1 : toSize c = (c + 18446744073709551616).toNat := toSize_neg _ hc (by omega)
    simp only [getTerminalWidth, Option.getD_none, if_true, h1]
    rw [if_neg (by omega)]
  rw [ht]
  have h1 : sizeToInt (wrapSub (wrapSub (wrapSub (c + 18446744073709551616).toNat info.length) 1) 2) = c - info.length - 3 := by
    rw [wrapSub_three]
    have e1 : toSize (((c + 18446744073709551616).toNat : Int) - info.length - 3) = toSize (c - info.length - 3) := by
      unfold toSize
      omega
    rw [e1, int_small _ (by omega) (by omega)]
  have h2 : ¬ (toSize (c - info.length - 3) > (c + 18446744073709551616).toNat) := by
    rw [toSize_neg _ (by omega) (by omega)]
    omega
  have hm : (0 : Rat) < max := by exact_mod_cast (by omega : 0 < max)
  have hf0 : (0 : Rat) ≤ (progress : Rat) / (max : Rat) := div_nonneg (Nat.cast_nonneg _) (Nat.cast_nonneg _)
  have hf1 : (progress : Rat) / (max : Rat) ≤ 1 := by
    rw [div_le_one hm]
    exact_mod_cast (by omega : progress ≤ max)
  obtain ⟨w, h3⟩ : ∃ w, toInt32 (((c - info.length - 3 : Int) : Rat) * ((progress : Rat) / (max : Rat))) = .ok w := by
    have hn : ((c - info.length - 3 : Int) : Rat) ≤ 0 := by exact_mod_cast (by omega : c - info.length - 3 ≤ 0)
    generalize hx : ((c - info.length - 3 : Int) : Rat) * ((progress : Rat) / (max : Rat)) = x
    have hx0 : x ≤ 0 := by rw [← hx]; exact mul_nonpos_of_nonpos_of_nonneg hn hf0
    have hx1 : ((c - info.length - 3 : Int) : Rat) ≤ x := by
      rw [← hx]
      exact le_mul_of_le_one_right' hn hf1
    by_cases h0 : 0 ≤ x
    · have : x = 0 := le_antisymm hx0 h0
      exact ⟨0, toInt32_ok _ _ (by rw [if_pos h0, this]; simp) (by omega) (by omega)⟩
    · have ha : ⌈x⌉ ≤ 0 := Int.ceil_le.2 (by exact_mod_cast hx0)
      have hb : c - info.length - 3 ≤ ⌈x⌉ := by
        have := Int.ceil_mono hx1
        rwa [Int.ceil_intCast] at this
      exact ⟨_, toInt32_ok _ _ (if_neg h0) (by omega) (by omega)⟩
  have h4 : ¬ (progress ≥ max) := by omega
  have hb : Max.max (Min.min w (c - info.length - 3)) 1 = 1 := by omega
  rw [← hinfo] at h1 h2 h3 hb
  rw [printProgress_eq hm0 h1 h2 h3, if_neg h4, hb]
  have h5 : stringOf (1 - 1) '=' = .ok [] := by rfl
  rw [hinfo, stringOf_neg (n := c - ↑info.length - 3 - 1) (by omega), h5]
  rfl

/-- The terminal in front of the user: its width, also if it is not known. -/
theorem C137_width (tty : Option Nat) (columns : Option Int) (h : ∀ c, columns = some c → 0 ≤ c ∧ c < 9223372036854775808) :
    getTerminalWidth tty columns =
      match tty, columns with
      | some (w + 1), _ => w + 1
      | _, some c => if c = 0 then 80 else c.toNat
      | _, none => 80 := by
  have hs : ∀ c, columns = some c → toSize c = c.toNat := by
    intro c hc
    have := h c hc
    exact toSize_pos _ this.1 (by omega)
  rcases tty with _ | _ | w <;> rcases columns with _ | c
  · rfl
  · simp only [getTerminalWidth, Option.getD_none, if_true, hs c rfl]
    have := h c rfl
    by_cases hc : c = 0
    · simp [hc]
    · rw [if_neg (by omega), if_neg hc]
  · rfl
  · simp only [getTerminalWidth, Option.getD_some, if_true, hs c rfl]
    have := h c rfl
    by_cases hc : c = 0
    · simp [hc]
    · rw [if_neg (by omega), if_neg hc]
  · simp [getTerminalWidth]
  · simp [getTerminalWidth]

/-- 80 columns, 3 of 10 iterations. -/
example : (progressInfo 3 10 false).length + 3 < 80 ∧ ((3 : Nat) : Int) * ((80 : Nat) : Int) < ((10 : Nat) : Int) * 2147483648 := by
  rw [C137_text 3 10 false (by omega)]
  decide +kernel

example : String.ofList (progressInfo 3 10 false) = " 30%  3/~10" := by
  rw [C137_text 3 10 false (by omega)]
  decide +kernel

end Verif
