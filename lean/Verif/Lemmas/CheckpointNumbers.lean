import Mathlib.Tactic.Linarith
import Mathlib.Tactic.Ring
import Mathlib.Tactic.Positivity
import Mathlib.Tactic.FieldSimp
import Mathlib.Tactic.NormNum
import Mathlib.Tactic.IntervalCases
import Mathlib.Data.Nat.Digits.Lemmas
import Mathlib.Algebra.Order.Round
import Verif.Model.Checkpoint
import Verif.Spec.Checkpoint
/-! Printing and reading numbers. -/
namespace Verif

open Spec.Checkpoint

/-! ### Digits -/

/-- Only digits. -/
def AllDigits (l : List Char) : Prop := ∀ c ∈ l, isDigitChar c = true

theorem digitChar_isDigit {d : Nat} (h : d < 10) : isDigitChar (digitChar d) = true := by
  interval_cases d <;> decide

theorem digitChar_val {d : Nat} (h : d < 10) : (digitChar d).toNat - 48 = d := by
  interval_cases d <;> decide

theorem AllDigits.append {l l' : List Char} (h : AllDigits l) (h' : AllDigits l') : AllDigits (l ++ l') := by
  intro c hc
  rcases List.mem_append.1 hc with h1 | h1
  · exact h c h1
  · exact h' c h1

theorem natText_digits (n : Nat) : AllDigits (natText n) := by
  intro c hc
  unfold natText at hc
  split at hc
  · simp only [List.mem_singleton] at hc
    subst hc
    decide
  · obtain ⟨d, hd, rfl⟩ := List.mem_map.1 hc
    exact digitChar_isDigit (Nat.digits_lt_base (by norm_num) (List.mem_reverse.1 hd))

theorem natText_ne_nil (n : Nat) : natText n ≠ [] := by
  unfold natText
  split
  · simp
  · next h => simpa [Nat.digits_eq_nil_iff_eq_zero] using h

theorem digitsVal_snoc (l : List Char) (c : Char) : digitsVal (l ++ [c]) = 10 * digitsVal l + (c.toNat - 48) := by
  simp [digitsVal]

theorem digitsVal_append (l l' : List Char) : digitsVal (l ++ l') = digitsVal l * 10 ^ l'.length + digitsVal l' := by
  induction l' using List.reverseRecOn with
  | nil => simp [digitsVal]
  | append_singleton l' c ih =>
    rw [← List.append_assoc, digitsVal_snoc, ih, digitsVal_snoc, List.length_append, List.length_singleton, pow_succ]
    ring

theorem digitsVal_map (ds : List Nat) (h : ∀ d ∈ ds, d < 10) : digitsVal (ds.reverse.map digitChar) = Nat.ofDigits 10 ds := by
  induction ds with
  | nil => rfl
  | cons d ds ih =>
    rw [List.reverse_cons, List.map_append, List.map_singleton, digitsVal_snoc, ih (fun x hx => h x (List.mem_cons_of_mem _ hx)),
      digitChar_val (h d List.mem_cons_self), Nat.ofDigits_cons]
    omega

theorem digitsVal_natText (n : Nat) : digitsVal (natText n) = n := by
  unfold natText
  split
  · next h => subst h; rfl
  · rw [digitsVal_map _ (fun d hd => Nat.digits_lt_base (by norm_num) hd), Nat.ofDigits_digits]

theorem natText_length {P m : Nat} (hP : 1 ≤ P) (h1 : 10 ^ (P - 1) ≤ m) (h2 : m < 10 ^ P) : (natText m).length = P := by
  have h0 : m ≠ 0 := by
    rintro rfl
    have : 0 < 10 ^ (P - 1) := by positivity
    omega
  unfold natText
  rw [if_neg h0, List.length_map, List.length_reverse]
  have a := (Nat.digits_length_le_iff (b := 10) (k := P) (by norm_num) m).2 h2
  have b := (Nat.lt_digits_length_iff (b := 10) (k := P - 1) (by norm_num) m).2 h1
  omega

theorem natText_injective {m n : Nat} (h : natText m = natText n) : m = n := by
  rw [← digitsVal_natText m, h, digitsVal_natText]

theorem digitsVal_zeros (k : Nat) : digitsVal (List.replicate k '0') = 0 := by
  induction k with
  | zero => rfl
  | succ k ih => rw [List.replicate_succ', digitsVal_snoc, ih]; rfl

theorem mem_takeWhile_sat {α : Type} {p : α → Bool} {l : List α} {x : α} (h : x ∈ l.takeWhile p) : p x = true := by
  induction l with
  | nil => cases h
  | cons a l ih =>
    rw [List.takeWhile_cons] at h
    split at h
    · next ha =>
      rcases List.mem_cons.1 h with rfl | h
      · exact ha
      · exact ih h
    · cases h

theorem stripZeros_spec (l : List Char) : ∃ k, l = stripZeros l ++ List.replicate k '0' := by
  refine ⟨(l.reverse.takeWhile (· = '0')).length, ?_⟩
  have h : l.reverse.takeWhile (fun c => decide (c = '0')) = List.replicate (l.reverse.takeWhile (fun c => decide (c = '0'))).length '0' := by
    refine List.eq_replicate_of_mem fun c hc => ?_
    simpa using (mem_takeWhile_sat hc)
  have h2 := List.takeWhile_append_dropWhile (p := fun c => decide (c = '0')) (l := l.reverse)
  have h3 := congrArg List.reverse h2
  rw [List.reverse_append, List.reverse_reverse] at h3
  conv_lhs => rw [← h3]
  unfold stripZeros
  congr 1
  conv_lhs => rw [h]
  simp

theorem stripZeros_digits {l : List Char} (h : AllDigits l) : AllDigits (stripZeros l) := by
  intro c hc
  obtain ⟨k, hk⟩ := stripZeros_spec l
  exact h c (by rw [hk]; exact List.mem_append_left _ hc)

/-! ### Scanning -/

theorem takeWhile_digits {l : List Char} (h : AllDigits l) {rest : List Char} (hr : ∀ c r, rest = c :: r → isDigitChar c = false) :
    (l ++ rest).takeWhile isDigitChar = l ∧ (l ++ rest).dropWhile isDigitChar = rest := by
  induction l with
  | nil =>
    cases rest with
    | nil => simp
    | cons c r => simp [hr c r rfl]
  | cons a l ih =>
    have ha := h a List.mem_cons_self
    obtain ⟨h1, h2⟩ := ih (fun c hc => h c (List.mem_cons_of_mem _ hc))
    simp [ha, h1, h2]

theorem dropWhile_spaces {ws : List Char} (h : ∀ c ∈ ws, isSpaceChar c = true) {c : Char} (hc : isSpaceChar c = false) (r : List Char) :
    (ws ++ c :: r).dropWhile isSpaceChar = c :: r := by
  induction ws with
  | nil => simp [hc]
  | cons a ws ih =>
    have ha := h a List.mem_cons_self
    simp only [List.cons_append, List.dropWhile_cons, ha, if_true]
    exact ih fun c hc => h c (List.mem_cons_of_mem _ hc)

theorem digit_toNat {c : Char} (h : isDigitChar c = true) : 48 ≤ c.toNat ∧ c.toNat ≤ 57 := by
  simpa [isDigitChar] using h

theorem digit_not_space {c : Char} (h : isDigitChar c = true) : isSpaceChar c = false := by
  have := digit_toNat h
  have ne : ∀ d : Char, (d.toNat < 48 ∨ 57 < d.toNat) → c ≠ d := by rintro d hd rfl; omega
  simp only [isSpaceChar, decide_eq_false_iff_not, not_or]
  refine ⟨ne _ (by decide), ne _ (by decide), ne _ (by decide), ne _ (by decide), ne _ (by decide), ne _ (by decide)⟩

theorem space_not_digit {c : Char} (h : isSpaceChar c = true) : isDigitChar c = false := by
  by_contra hd
  rw [Bool.not_eq_false] at hd
  rw [digit_not_space hd] at h
  exact absurd h (by decide)

theorem scanSign_digit {c : Char} (h : isDigitChar c = true) (r : List Char) : scanSign (c :: r) = (false, c :: r) := by
  have := digit_toNat h
  have ne : ∀ d : Char, (d.toNat < 48 ∨ 57 < d.toNat) → c ≠ d := by rintro d hd rfl; omega
  unfold scanSign
  split
  · next heq => exact absurd (List.cons.inj heq).1 (ne _ (by decide))
  · next heq => exact absurd (List.cons.inj heq).1 (ne _ (by decide))
  · rfl

theorem scanFrac_other {c : Char} (h : c ≠ '.') (r : List Char) : scanFrac (c :: r) = ([], c :: r) := by
  unfold scanFrac
  split
  · next heq => exact absurd (List.cons.inj heq).1 h
  · rfl

theorem endState_cons (c : Char) (r : List Char) : endState true (c :: r) = .good (c :: r) := rfl

theorem scanExp_other {c : Char} (h1 : c ≠ 'e') (h2 : c ≠ 'E') (r : List Char) : scanExp (c :: r) = some (0, c :: r) := by
  simp [scanExp, h1, h2]

theorem space_other {c : Char} (h : isSpaceChar c = true) : c ≠ '.' ∧ c ≠ 'e' ∧ c ≠ 'E' := by
  refine ⟨?_, ?_, ?_⟩ <;> rintro rfl <;> revert h <;> decide

/-- Value of an exponent text: `none` for no exponent. -/
def expOf : Option Int → List Char
  | none => []
  | some x => expText x

/-- The exponent itself. -/
def expVal : Option Int → Int
  | none => 0
  | some x => x

theorem scanExp_text (x : Option Int) {c : Char} (hc : isSpaceChar c = true) (rest : List Char) :
    scanExp (expOf x ++ c :: rest) = some (expVal x, c :: rest) := by
  cases x with
  | none => exact scanExp_other (space_other hc).2.1 (space_other hc).2.2 rest
  | some x =>
    have hcd := space_not_digit hc
    set ds := (if x.natAbs < 10 then '0' :: natText x.natAbs else natText x.natAbs) with hds
    have hd : AllDigits ds := by
      rw [hds]
      split
      · intro d h
        rcases List.mem_cons.1 h with rfl | h
        · decide
        · exact natText_digits _ d h
      · exact natText_digits _
    have hv : digitsVal ds = x.natAbs := by
      rw [hds]
      split
      · have : ('0' :: natText x.natAbs : List Char) = ['0'] ++ natText x.natAbs := rfl
        rw [this, digitsVal_append, digitsVal_natText]
        simp [digitsVal]
      · exact digitsVal_natText _
    have hne : ds ≠ [] := by
      rw [hds]
      split
      · simp
      · exact natText_ne_nil _
    obtain ⟨h1, h2⟩ := takeWhile_digits hd (rest := c :: rest) (by rintro _ _ h; rw [← (List.cons.inj h).1]; exact hcd)
    simp only [expOf, expText, List.cons_append, ← hds]
    simp only [scanExp, true_or, if_true]
    by_cases hx : x < 0
    · simp only [hx, if_true, scanSign, h1, h2, hne, if_false, hv, expVal, Option.some.injEq, Prod.mk.injEq, and_true]
      omega
    · simp only [hx, if_false, scanSign, h1, h2, hne, hv, expVal, Option.some.injEq, Prod.mk.injEq, and_true, Bool.false_eq_true]
      omega

/-- Reading a number of the form sign, digits, fraction, exponent. -/
theorem readDouble_text {ws ip l : List Char} (hws : ∀ c ∈ ws, isSpaceChar c = true) (neg : Bool) (hip : AllDigits ip) (hne : ip ≠ [])
    (hl : AllDigits l) (x : Option Int) {c : Char} (hc : isSpaceChar c = true) (rest : List Char) :
    readDouble (.good (ws ++ ((if neg then ['-'] else []) ++ (ip ++ fracText l ++ expOf x)) ++ c :: rest)) =
      ((if neg then -1 else 1) * (digitsVal (ip ++ l) : Rat) * (10 : Rat) ^ (expVal x - (l.length : Int)), .good (c :: rest)) := by
  obtain ⟨d, ip', rfl⟩ : ∃ d ip', ip = d :: ip' := by
    cases ip with
    | nil => exact absurd rfl hne
    | cons d ip' => exact ⟨d, ip', rfl⟩
  have hd := hip d List.mem_cons_self
  -- after the white space and the sign
  have h0 : ∃ r0, (ws ++ ((if neg then ['-'] else []) ++ (d :: ip' ++ fracText l ++ expOf x)) ++ c :: rest).dropWhile isSpaceChar = r0 ∧
      scanSign r0 = (neg, (d :: ip') ++ (fracText l ++ (expOf x ++ c :: rest))) := by
    cases neg with
    | true =>
      refine ⟨'-' :: ((d :: ip') ++ (fracText l ++ (expOf x ++ c :: rest))), ?_, rfl⟩
      have := dropWhile_spaces hws (c := '-') (by decide) ((d :: ip') ++ (fracText l ++ (expOf x ++ c :: rest)))
      simpa using this
    | false =>
      refine ⟨_, ?_, scanSign_digit hd _⟩
      have := dropWhile_spaces hws (digit_not_space hd) (ip' ++ (fracText l ++ (expOf x ++ c :: rest)))
      simpa using this
  obtain ⟨r0, hr0, hs⟩ := h0
  have hcd := space_not_digit hc
  obtain ⟨hc1, hc2, hc3⟩ := space_other hc
  -- the exponent part does not begin with a digit or a point
  have hexp : ∀ a r, expOf x ++ c :: rest = a :: r → isDigitChar a = false ∧ a ≠ '.' := by
    intro a r h
    cases x with
    | none =>
      rw [expOf, List.nil_append] at h
      rw [← (List.cons.inj h).1]
      exact ⟨hcd, hc1⟩
    | some x =>
      rw [expOf, expText, List.cons_append] at h
      rw [← (List.cons.inj h).1]
      exact ⟨by decide, by decide⟩
  obtain ⟨a, r, har⟩ : ∃ a r, expOf x ++ c :: rest = a :: r := by
    cases h : expOf x ++ c :: rest with
    | nil => simp at h
    | cons a r => exact ⟨a, r, rfl⟩
  obtain ⟨ha1, ha2⟩ := hexp a r har
  have hf : ∀ a' r', fracText l ++ (expOf x ++ c :: rest) = a' :: r' → isDigitChar a' = false := by
    intro a' r' h
    unfold fracText at h
    split at h
    · exact (hexp a' r' h).1
    · rw [List.cons_append] at h
      rw [← (List.cons.inj h).1]
      decide
  obtain ⟨h1, h2⟩ := takeWhile_digits hip hf
  have hfrac : scanFrac (fracText l ++ (expOf x ++ c :: rest)) = (stripZeros l, expOf x ++ c :: rest) := by
    unfold fracText
    split
    · next h => rw [List.nil_append, har, scanFrac_other ha2, h]
    · have := takeWhile_digits (stripZeros_digits hl) (rest := expOf x ++ c :: rest) (fun a r h => (hexp a r h).1)
      simp only [List.cons_append, scanFrac, this.1, this.2]
  simp only [readDouble, hr0, hs, h1, h2, hfrac, scanExp_text x hc]
  rw [if_neg (by simp)]
  obtain ⟨k, hk⟩ := stripZeros_spec l
  refine Prod.ext ?_ rfl
  show _ * (digitsVal (d :: ip' ++ stripZeros l) : Rat) * (10 : Rat) ^ (expVal x - ((stripZeros l).length : Int)) = _
  conv_rhs => rw [hk]
  rw [← List.append_assoc, digitsVal_append _ (List.replicate k '0'), digitsVal_zeros, List.length_append, List.length_replicate,
    mul_assoc, mul_assoc]
  congr 1
  push_cast
  rw [add_zero, mul_assoc]
  congr 1
  rw [← zpow_natCast, ← zpow_add₀ (by norm_num : (10 : Rat) ≠ 0)]
  congr 1
  ring

/-! ### Rounding -/

/-- The value of the printed digits. -/
def roundSig (P : Nat) (q : Rat) : Rat :=
  if q = 0 then 0
  else (if q < 0 then -1 else 1) * ((sigDigits P |q|).1 : Rat) * (10 : Rat) ^ ((sigDigits P |q|).2 - ((P : Int) - 1))

theorem roundHalfEven_near (x : Rat) : |x - roundHalfEven x| ≤ 1 / 2 := by
  have h0 := Int.floor_le x
  have h1 := Int.lt_floor_add_one x
  unfold roundHalfEven
  split_ifs <;> rw [abs_le] <;> push_cast <;> constructor <;> linarith

theorem roundHalfEven_nearest (x : Rat) (k : Int) : |x - roundHalfEven x| ≤ |x - k| := by
  by_cases h : k = roundHalfEven x
  · rw [h]
  · have h1 := roundHalfEven_near x
    have h2 : (1 : Rat) ≤ |((roundHalfEven x - k : Int) : Rat)| := by
      rw [← Int.cast_abs]
      exact_mod_cast Int.one_le_abs (sub_ne_zero.2 (Ne.symm h))
    have h3 : |((roundHalfEven x - k : Int) : Rat)| ≤ |x - roundHalfEven x| + |x - k| := by
      push_cast
      calc |(roundHalfEven x : Rat) - k| = |(x - k) - (x - roundHalfEven x)| := by congr 1; ring
        _ ≤ |x - k| + |x - roundHalfEven x| := abs_sub _ _
        _ = _ := add_comm _ _
    linarith

theorem roundHalfEven_mono_le {x : Rat} {k : Int} (h : (k : Rat) ≤ x) : k ≤ roundHalfEven x := by
  have : k ≤ ⌊x⌋ := Int.le_floor.2 h
  unfold roundHalfEven
  split_ifs <;> omega

theorem roundHalfEven_le {x : Rat} {k : Int} (h : x ≤ k) : roundHalfEven x ≤ k := by
  have h1 := roundHalfEven_near x
  rw [abs_le] at h1
  by_contra hk
  have : (k : Rat) + 1 ≤ roundHalfEven x := by exact_mod_cast (by omega : k + 1 ≤ roundHalfEven x)
  have h2 : x = k := by
    have hfl : ⌊x⌋ ≤ k := by
      rw [← Int.cast_le (R := Rat)]
      exact (Int.floor_le x).trans h
    linarith
  subst h2
  unfold roundHalfEven at hk
  simp at hk

/-- The bounds of the scaled number. -/
theorem scaled_bounds {a : Rat} (ha : 0 < a) (P : Nat) :
    (10 : Rat) ^ ((P : Int) - 1) ≤ a * (10 : Rat) ^ ((P : Int) - 1 - Int.log 10 a) ∧
      a * (10 : Rat) ^ ((P : Int) - 1 - Int.log 10 a) < (10 : Rat) ^ (P : Int) := by
  have h1 : (10 : Rat) ^ Int.log 10 a ≤ a := by exact_mod_cast Int.zpow_log_le_self (b := 10) (by norm_num) ha
  have h2 : a < (10 : Rat) ^ (Int.log 10 a + 1) := by exact_mod_cast Int.lt_zpow_succ_log_self (b := 10) (by norm_num) a
  have hp : (0 : Rat) < (10 : Rat) ^ ((P : Int) - 1 - Int.log 10 a) := zpow_pos (by norm_num) _
  constructor
  · calc (10 : Rat) ^ ((P : Int) - 1) = (10 : Rat) ^ Int.log 10 a * (10 : Rat) ^ ((P : Int) - 1 - Int.log 10 a) := by
          rw [← zpow_add₀ (by norm_num)]; congr 1; ring
      _ ≤ _ := by gcongr
  · calc a * (10 : Rat) ^ ((P : Int) - 1 - Int.log 10 a) < (10 : Rat) ^ (Int.log 10 a + 1) * (10 : Rat) ^ ((P : Int) - 1 - Int.log 10 a) := by
          gcongr
      _ = _ := by rw [← zpow_add₀ (by norm_num)]; congr 1; ring

theorem pow_pred {P : Nat} (hP : 1 ≤ P) : (10 : Rat) ^ ((P : Int) - 1) = (((10 ^ (P - 1) : Nat) : Int) : Rat) := by
  obtain ⟨p, rfl⟩ : ∃ p, P = p + 1 := ⟨P - 1, by omega⟩
  push_cast
  rw [show ((p : Int) + 1 - 1) = (p : Int) by ring, zpow_natCast]
  try simp

theorem sigDigits_bounds {P : Nat} (hP : 1 ≤ P) {a : Rat} (ha : 0 < a) :
    10 ^ (P - 1) ≤ (sigDigits P a).1 ∧ (sigDigits P a).1 < 10 ^ P := by
  obtain ⟨h1, h2⟩ := scaled_bounds ha P
  rw [pow_pred hP] at h1
  have h3 := roundHalfEven_mono_le h1
  have h4 : roundHalfEven (a * (10 : Rat) ^ ((P : Int) - 1 - Int.log 10 a)) ≤ ((10 ^ P : Nat) : Int) := by
    apply roundHalfEven_le
    rw [zpow_natCast] at h2
    push_cast
    exact h2.le
  unfold sigDigits
  dsimp only
  split_ifs with h
  · exact ⟨le_rfl, Nat.pow_lt_pow_right (by norm_num) (by omega)⟩
  · have hpp : (0 : Int) < ((10 ^ (P - 1) : Nat) : Int) := by positivity
    generalize roundHalfEven (a * (10 : Rat) ^ ((P : Int) - 1 - Int.log 10 a)) = r at *
    generalize 10 ^ (P - 1) = t1 at *
    generalize 10 ^ P = t2 at *
    constructor <;> dsimp only <;> omega

/-- The value of the significant digits is the rounded scaled number. -/
theorem sigDigits_value {P : Nat} (hP : 1 ≤ P) {a : Rat} (ha : 0 < a) :
    ((sigDigits P a).1 : Rat) * (10 : Rat) ^ ((sigDigits P a).2 - ((P : Int) - 1)) =
      roundHalfEven (a * (10 : Rat) ^ ((P : Int) - 1 - Int.log 10 a)) * (10 : Rat) ^ (Int.log 10 a - ((P : Int) - 1)) := by
  obtain ⟨h1, h2⟩ := scaled_bounds ha P
  rw [pow_pred hP] at h1
  have h3 := roundHalfEven_mono_le h1
  set m := roundHalfEven (a * (10 : Rat) ^ ((P : Int) - 1 - Int.log 10 a)) with hm
  have hm0 : 0 ≤ m := le_trans (by positivity) h3
  have hmc : ((m.toNat : Nat) : Rat) = (m : Rat) := by
    have : ((m.toNat : Nat) : Int) = m := Int.toNat_of_nonneg hm0
    exact_mod_cast this
  unfold sigDigits
  dsimp only
  rw [← hm]
  split_ifs with h
  · have : (m : Rat) = (10 : Rat) ^ P := by
      rw [← hmc, h]; push_cast; rfl
    simp only
    rw [this]
    obtain ⟨p, rfl⟩ : ∃ p, P = p + 1 := ⟨P - 1, by omega⟩
    rw [Nat.add_sub_cancel]
    push_cast
    rw [← zpow_natCast, ← zpow_natCast, ← zpow_add₀ (by norm_num), ← zpow_add₀ (by norm_num)]
    congr 1
    push_cast
    ring
  · simp only
    rw [hmc]

/-- Reading a printed number yields the value of its digits. -/
theorem readDouble_ratText {P : Nat} (hP : 1 ≤ P) (q : Rat) {ws : List Char} (hws : ∀ c ∈ ws, isSpaceChar c = true) {c : Char}
    (hc : isSpaceChar c = true) (rest : List Char) :
    readDouble (.good (ws ++ ratText P q ++ c :: rest)) = (roundSig P q, .good (c :: rest)) := by
  unfold ratText roundSig
  by_cases h0 : q = 0
  · rw [if_pos h0, if_pos h0]
    have := readDouble_text hws false (ip := ['0']) (l := []) (by intro d hd; simp only [List.mem_singleton] at hd; subst hd; decide) (by simp)
      (by intro d hd; cases hd) none hc rest
    simp only [Bool.false_eq_true, if_false, fracText, stripZeros, expOf] at this
    simpa [digitsVal] using this
  · rw [if_neg h0, if_neg h0]
    have ha : 0 < |q| := abs_pos.2 h0
    obtain ⟨hb1, hb2⟩ := sigDigits_bounds hP ha
    set m := (sigDigits P |q|).1
    set x := (sigDigits P |q|).2
    have hlen := natText_length hP hb1 hb2
    have hds := natText_digits m
    have hval := digitsVal_natText m
    have hT : ∀ k, AllDigits ((natText m).take k) := fun k d hd => hds d (List.mem_of_mem_take hd)
    have hD : ∀ k, AllDigits ((natText m).drop k) := fun k d hd => hds d (List.mem_of_mem_drop hd)
    have hne : ∀ k, (natText m).take (k + 1) ≠ [] := by
      intro k
      have := natText_ne_nil m
      cases h : natText m with
      | nil => exact absurd h this
      | cons a l => simp
    -- the sign
    obtain ⟨neg, hn1, hn2⟩ : ∃ neg : Bool, (if q < 0 then ['-'] else [] : List Char) = (if neg then ['-'] else []) ∧
        (if q < 0 then (-1 : Rat) else 1) = if neg then -1 else 1 := ⟨decide (q < 0), by simp, by simp⟩
    rw [hn1, hn2]
    unfold digitsText
    dsimp only
    by_cases hx : x < -4 ∨ (P : Int) ≤ x
    · rw [if_pos hx]
      have := readDouble_text hws neg (hT 1) (hne 0) (hD 1) (some x) hc rest
      simp only [expOf, expVal, List.take_append_drop, hval, List.length_drop, hlen] at this
      rw [this]
      congr 3
      omega
    · rw [if_neg hx]
      by_cases hx0 : 0 ≤ x
      · rw [if_pos hx0]
        have := readDouble_text hws neg (hT (x.toNat + 1)) (hne _) (hD (x.toNat + 1)) none hc rest
        simp only [expOf, expVal, List.take_append_drop, hval, List.length_drop, hlen, List.append_nil] at this
        rw [this]
        congr 3
        omega
      · rw [if_neg hx0]
        have hz : AllDigits (List.replicate (x.natAbs - 1) '0') := by
          intro d hd
          rw [(List.mem_replicate.1 hd).2]
          decide
        have := readDouble_text hws neg (ip := ['0']) (by intro d hd; simp only [List.mem_singleton] at hd; subst hd; decide) (by simp)
          (hz.append hds) none hc rest
        have hv : digitsVal (['0'] ++ (List.replicate (x.natAbs - 1) '0' ++ natText m)) = m := by
          rw [← List.append_assoc, digitsVal_append, hval]
          have : (['0'] ++ List.replicate (x.natAbs - 1) '0' : List Char) = List.replicate (x.natAbs - 1 + 1) '0' := by
            rw [List.replicate_succ]; rfl
          rw [this, digitsVal_zeros]
          simp
        simp only [expOf, expVal, hv, List.length_append, List.length_replicate, hlen, List.append_nil] at this
        simp only [List.singleton_append] at this
        rw [this]
        congr 3
        omega

theorem roundSig_zero (P : Nat) : roundSig P 0 = 0 := if_pos rfl

theorem roundSig_neg (P : Nat) (q : Rat) : roundSig P (-q) = -roundSig P q := by
  unfold roundSig
  by_cases h : q = 0
  · simp [h]
  · rw [if_neg h, if_neg (neg_ne_zero.2 h), abs_neg]
    rcases lt_or_gt_of_ne h with h' | h'
    · rw [if_neg (by linarith), if_pos h']; ring
    · rw [if_pos (by linarith), if_neg (by linarith)]; ring

theorem roundSig_pos {P : Nat} (hP : 1 ≤ P) {a : Rat} (ha : 0 < a) :
    roundSig P a = roundHalfEven (a * (10 : Rat) ^ ((P : Int) - 1 - Int.log 10 a)) * (10 : Rat) ^ (Int.log 10 a - ((P : Int) - 1)) := by
  unfold roundSig
  rw [if_neg ha.ne', if_neg (by linarith), abs_of_pos ha, one_mul, sigDigits_value hP ha]

theorem decimal_neg {P : Nat} {r : Rat} (h : Decimal P r) : Decimal P (-r) := by
  obtain ⟨m, e, hm, rfl⟩ := h
  exact ⟨-m, e, by rwa [abs_neg], by push_cast; ring⟩

theorem closest_neg {P : Nat} {q r : Rat} (h : Closest P q r) : Closest P (-q) (-r) := by
  refine ⟨decimal_neg h.1, fun r' hr' => ?_⟩
  have := h.2 _ (decimal_neg hr')
  rw [show -q - -r = -(q - r) by ring, show -q - r' = -(q - -r') by ring, abs_neg, abs_neg]
  exact this

/-- An integer multiple of the unit that is at least as close as all other integer multiples is a closest decimal. -/
theorem closest_of_nearest {P : Nat} (hP : 1 ≤ P) {a : Rat} (ha : 0 < a) {k : Int}
    (hk : ∀ j : Int, |a * (10 : Rat) ^ ((P : Int) - 1 - Int.log 10 a) - k| ≤ |a * (10 : Rat) ^ ((P : Int) - 1 - Int.log 10 a) - j|) :
    Closest P a (k * (10 : Rat) ^ (Int.log 10 a - ((P : Int) - 1))) := by
  obtain ⟨hb1, hb2⟩ := scaled_bounds ha P
  set e := Int.log 10 a with he
  set u := (10 : Rat) ^ (e - ((P : Int) - 1)) with hu
  have hu0 : 0 < u := zpow_pos (by norm_num) _
  have hinv : (10 : Rat) ^ ((P : Int) - 1 - e) * u = 1 := by
    rw [hu, ← zpow_add₀ (by norm_num)]
    simp
  set x := a * (10 : Rat) ^ ((P : Int) - 1 - e) with hx
  have hax : a = x * u := by rw [hx, mul_assoc, hinv, mul_one]
  have hscale : ∀ j : Int, |a - j * u| = |x - j| * u := by
    intro j
    rw [hax, ← sub_mul, abs_mul, abs_of_pos hu0]
  have hmul : ∀ j : Int, |a - k * u| ≤ |a - j * u| := by
    intro j
    rw [hscale, hscale]
    exact mul_le_mul_of_nonneg_right (hk j) hu0.le
  -- the bounds of the multiple
  have hk1 : ((10 ^ (P - 1) : Nat) : Int) ≤ k := by
    by_contra hlt
    rw [pow_pred hP] at hb1
    have h1 := hk ((10 ^ (P - 1) : Nat) : Int)
    have hc : (k : Rat) + 1 ≤ (((10 ^ (P - 1) : Nat) : Int) : Rat) := by exact_mod_cast (by omega : k + 1 ≤ ((10 ^ (P - 1) : Nat) : Int))
    rw [abs_of_nonneg (by linarith), abs_of_nonneg (by linarith)] at h1
    linarith
  have hk2 : k ≤ ((10 ^ P : Nat) : Int) := by
    by_contra hlt
    rw [zpow_natCast] at hb2
    have h1 := hk ((10 ^ P : Nat) : Int)
    have hc : (((10 ^ P : Nat) : Int) : Rat) + 1 ≤ (k : Rat) := by exact_mod_cast (by omega : ((10 ^ P : Nat) : Int) + 1 ≤ k)
    have hc' : (((10 ^ P : Nat) : Int) : Rat) = (10 : Rat) ^ P := by push_cast; rfl
    rw [abs_of_neg (by linarith), abs_of_neg (by linarith)] at h1
    linarith
  refine ⟨?_, ?_⟩
  · by_cases hkp : k = ((10 ^ P : Nat) : Int)
    · refine ⟨1, e - ((P : Int) - 1) + P, ?_, ?_⟩
      · rw [abs_one]
        exact_mod_cast Nat.one_lt_pow (by omega) (by norm_num)
      · rw [hkp, zpow_add₀ (by norm_num : (10 : Rat) ≠ 0), zpow_natCast]
        push_cast
        ring
    · refine ⟨k, _, ?_, rfl⟩
      have hk0 : 0 ≤ k := le_trans (by positivity) hk1
      rw [abs_of_nonneg hk0]
      have : k < ((10 ^ P : Nat) : Int) := lt_of_le_of_ne hk2 hkp
      exact_mod_cast this
  · rintro r' ⟨m, e', hm, rfl⟩
    by_cases hee : e - ((P : Int) - 1) ≤ e'
    · -- a multiple of the unit
      obtain ⟨d, hd⟩ : ∃ d : Nat, e' = e - ((P : Int) - 1) + d := ⟨(e' - (e - ((P : Int) - 1))).toNat, by omega⟩
      have := hmul (m * 10 ^ d)
      have heq : ((m * 10 ^ d : Int) : Rat) * u = m * (10 : Rat) ^ e' := by
        rw [hd, zpow_add₀ (by norm_num : (10 : Rat) ≠ 0), zpow_natCast, ← hu]
        push_cast
        ring
      rwa [heq] at this
    · -- smaller than the power of ten below `a`
      have h1 : (10 : Rat) ^ e ≤ a := by exact_mod_cast Int.zpow_log_le_self (b := 10) (by norm_num) ha
      have h2 : (m : Rat) * (10 : Rat) ^ e' ≤ (10 : Rat) ^ e := by
        have hm' : (m : Rat) ≤ (10 : Rat) ^ P := by
          have := (le_abs_self m).trans hm.le
          exact_mod_cast this
        have hp : (0 : Rat) < (10 : Rat) ^ e' := zpow_pos (by norm_num) _
        calc (m : Rat) * (10 : Rat) ^ e' ≤ (10 : Rat) ^ P * (10 : Rat) ^ e' := mul_le_mul_of_nonneg_right hm' hp.le
          _ = (10 : Rat) ^ ((P : Int) + e') := by rw [zpow_add₀ (by norm_num : (10 : Rat) ≠ 0), zpow_natCast]
          _ ≤ (10 : Rat) ^ e := zpow_le_zpow_right₀ (by norm_num) (by omega)
      have h3 := hmul ((10 ^ (P - 1) : Nat) : Int)
      have h4 : ((((10 ^ (P - 1) : Nat) : Int) : Rat)) * u = (10 : Rat) ^ e := by
        rw [← pow_pred hP, hu, ← zpow_add₀ (by norm_num)]
        congr 1
        ring
      rw [h4, abs_of_nonneg (by linarith : 0 ≤ a - (10 : Rat) ^ e)] at h3
      rw [abs_of_nonneg (by linarith : 0 ≤ a - (m : Rat) * (10 : Rat) ^ e')]
      linarith

theorem closest_zero {P : Nat} (hP : 1 ≤ P) : Closest P 0 0 :=
  ⟨⟨0, 0, by rw [abs_zero]; positivity, by simp⟩, fun r' _ => by simp⟩

/-- Printed numbers are closest decimals. -/
theorem roundSig_closest {P : Nat} (hP : 1 ≤ P) (q : Rat) : Closest P q (roundSig P q) := by
  have pos : ∀ a : Rat, 0 < a → Closest P a (roundSig P a) := fun a ha => by
    rw [roundSig_pos hP ha]
    exact closest_of_nearest hP ha fun j => roundHalfEven_nearest _ j
  rcases lt_trichotomy q 0 with h | h | h
  · have := closest_neg (pos (-q) (by linarith))
    rwa [roundSig_neg, neg_neg, neg_neg] at this
  · subst h
    rw [roundSig_zero]
    exact closest_zero hP
  · exact pos q h

end Verif
