import Verif.Spec.TuningLog
import Verif.Lemmas.CheckpointFile
import Mathlib.Tactic.NormNum
import Mathlib.Tactic.FieldSimp
/-! Reading back what the logger of tuning wrote. -/
namespace Verif
open Spec Spec.TuningLog Spec.Checkpoint

/-! ### Numbers -/

theorem paddedText_digits (w n : Nat) : AllDigits (paddedText w n) := by
  unfold paddedText
  refine AllDigits.append ?_ (natText_digits n)
  intro c hc
  rw [List.mem_replicate] at hc
  rw [hc.2]; decide

theorem paddedText_val (w n : Nat) : digitsVal (paddedText w n) = n := by
  unfold paddedText
  rw [digitsVal_append, digitsVal_zeros, digitsVal_natText, Nat.zero_mul, Nat.zero_add]

theorem natText_length_le {P m : Nat} (hP : 1 ≤ P) (h2 : m < 10 ^ P) : (natText m).length ≤ P := by
  unfold natText
  split_ifs with h
  · simpa using hP
  · rw [List.length_map, List.length_reverse]
    exact (Nat.digits_length_le_iff (by norm_num) m).2 h2

theorem paddedText_length {w n : Nat} (hw : 1 ≤ w) (h : n < 10 ^ w) : (paddedText w n).length = w := by
  unfold paddedText
  have := natText_length_le hw h
  rw [List.length_append, List.length_replicate]
  omega

/-- Reading a number with digits after the point. -/
theorem readDouble_point {ws ip l : List Char} (hws : ∀ c ∈ ws, isSpaceChar c = true) (neg : Bool) (hip : AllDigits ip) (hne : ip ≠ [])
    (hl : AllDigits l) {c : Char} (hc : isSpaceChar c = true) (rest : List Char) :
    readDouble (.good (ws ++ ((if neg then ['-'] else []) ++ (ip ++ '.' :: l)) ++ c :: rest)) =
      ((if neg then -1 else 1) * (digitsVal (ip ++ l) : Rat) * (10 : Rat) ^ (-(l.length : Int)), .good (c :: rest)) := by
  obtain ⟨d, ip', rfl⟩ : ∃ d ip', ip = d :: ip' := by
    cases ip with
    | nil => exact absurd rfl hne
    | cons d ip' => exact ⟨d, ip', rfl⟩
  have hd := hip d List.mem_cons_self
  have h0 : ∃ r0, (ws ++ ((if neg then ['-'] else []) ++ (d :: ip' ++ '.' :: l)) ++ c :: rest).dropWhile isSpaceChar = r0 ∧
      scanSign r0 = (neg, (d :: ip') ++ '.' :: (l ++ c :: rest)) := by
    cases neg with
    | true =>
      refine ⟨'-' :: ((d :: ip') ++ '.' :: (l ++ c :: rest)), ?_, rfl⟩
      have := dropWhile_spaces hws (c := '-') (by decide) ((d :: ip') ++ '.' :: (l ++ c :: rest))
      simpa using this
    | false =>
      refine ⟨_, ?_, scanSign_digit hd _⟩
      have := dropWhile_spaces hws (digit_not_space hd) (ip' ++ '.' :: (l ++ c :: rest))
      simpa using this
  obtain ⟨r0, h1, h2⟩ := h0
  obtain ⟨h3, h4⟩ := takeWhile_digits hip (rest := '.' :: (l ++ c :: rest)) (by rintro _ _ h; rw [← (List.cons.inj h).1]; decide)
  obtain ⟨h5, h6⟩ := takeWhile_digits hl (rest := c :: rest) (by rintro _ _ h; rw [← (List.cons.inj h).1]; exact space_not_digit hc)
  obtain ⟨-, h7, h8⟩ := space_other hc
  simp only [readDouble, h1, h2, h3, h4, scanFrac, h5, h6]
  rw [if_neg (by simp), scanExp_other h7 h8]
  simp only [endState_cons, Int.zero_sub]

/-- Six digits after the point. -/
def round6 (q : Rat) : Rat := (if q < 0 then -1 else 1) * ((roundHalfEven (|q| * 10 ^ 6)).toNat : Rat) / 10 ^ 6

theorem readDouble_fixedText (q : Rat) {ws : List Char} (hws : ∀ c ∈ ws, isSpaceChar c = true) {c : Char} (hc : isSpaceChar c = true) (rest : List Char) :
    readDouble (.good (ws ++ fixedText q ++ c :: rest)) = (round6 q, .good (c :: rest)) := by
  unfold fixedText round6
  set m := (roundHalfEven (|q| * 10 ^ 6)).toNat with hm
  have hlen := paddedText_length (w := 6) (by norm_num) (Nat.mod_lt m (by norm_num : 0 < 10 ^ 6))
  have := readDouble_point hws (decide (q < 0)) (natText_digits (m / 10 ^ 6)) (natText_ne_nil _) (paddedText_digits 6 (m % 10 ^ 6)) hc rest
  rw [digitsVal_append, digitsVal_natText, paddedText_val, hlen, Nat.div_add_mod'] at this
  simp only [decide_eq_true_eq] at this
  rw [List.append_assoc (if q < 0 then ['-'] else [])]
  rw [this]
  congr 1

theorem round6_exact {q : Rat} (h : ∃ n : Int, q * 10 ^ 6 = n) : round6 q = q := by
  obtain ⟨n, hn⟩ := h
  have habs : |q| * 10 ^ 6 = (n.natAbs : Rat) := by
    have : |q * 10 ^ 6| = |(n : Rat)| := by rw [hn]
    rw [abs_mul, abs_of_pos (by norm_num : (0 : Rat) < 10 ^ 6)] at this
    rw [this, Nat.cast_natAbs]
    push_cast
    rfl
  have hr : roundHalfEven (|q| * 10 ^ 6) = (n.natAbs : Int) := by
    apply le_antisymm
    · exact roundHalfEven_le (by rw [habs]; exact le_of_eq (Int.cast_natCast _).symm)
    · exact roundHalfEven_mono_le (by rw [habs]; exact le_of_eq (Int.cast_natCast _))
  unfold round6
  rw [hr, Int.toNat_natCast, ← habs]
  split_ifs with h0
  · rw [abs_of_neg h0]; field_simp
  · rw [abs_of_nonneg (not_lt.1 h0)]; field_simp

theorem readLong_text {n : Int} (h1 : -2 ^ 63 ≤ n) (h2 : n < 2 ^ 63) {ws : List Char} (hws : ∀ c ∈ ws, isSpaceChar c = true) {c : Char}
    (hc : isDigitChar c = false) (rest : List Char) : readLong (.good (ws ++ intText n ++ c :: rest)) = (n, .good (c :: rest)) := by
  obtain ⟨d, l, hl⟩ : ∃ d l, natText n.natAbs = d :: l := by
    cases h : natText n.natAbs with
    | nil => exact absurd h (natText_ne_nil _)
    | cons d l => exact ⟨d, l, rfl⟩
  have hd : isDigitChar d = true := natText_digits _ d (by rw [hl]; exact List.mem_cons_self)
  obtain ⟨h3, h4⟩ := takeWhile_digits (natText_digits n.natAbs) (rest := c :: rest) (by rintro _ _ h; rw [← (List.cons.inj h).1]; exact hc)
  unfold intText
  by_cases hn : n < 0
  · have h0 : (ws ++ ((if n < 0 then ['-'] else []) ++ natText n.natAbs) ++ c :: rest).dropWhile isSpaceChar = '-' :: (natText n.natAbs ++ c :: rest) := by
      have := dropWhile_spaces hws (c := '-') (by decide) (natText n.natAbs ++ c :: rest)
      simpa [hn] using this
    simp only [readLong, h0, scanSign, h3, h4, digitsVal_natText, if_neg (natText_ne_nil n.natAbs), if_true]
    rw [if_neg (by omega), endState_cons]
    congr 1
    omega
  · have h0 : (ws ++ ((if n < 0 then ['-'] else []) ++ natText n.natAbs) ++ c :: rest).dropWhile isSpaceChar = natText n.natAbs ++ c :: rest := by
      have := dropWhile_spaces hws (digit_not_space hd) (l ++ c :: rest)
      rw [if_neg hn, hl, List.nil_append, List.append_assoc]
      exact this
    have hs : scanSign (natText n.natAbs ++ c :: rest) = (false, natText n.natAbs ++ c :: rest) := by rw [hl]; exact scanSign_digit hd _
    simp only [readLong, h0, hs, h3, h4, digitsVal_natText, if_neg (natText_ne_nil n.natAbs), Bool.false_eq_true, if_false]
    rw [if_neg (by omega), endState_cons]
    congr 1
    omega

/-! ### Configurations -/

theorem ignoreUntil_of {d : Char} {pre : List Char} (h : d ∉ pre) (rest : List Char) : ignoreUntil d (.good (pre ++ d :: rest)) = .good rest := by
  have : (pre ++ d :: rest).dropWhile (· ≠ d) = d :: rest := by
    induction pre with
    | nil => simp
    | cons x pre ih =>
      rw [List.mem_cons, not_or] at h
      rw [List.cons_append, List.dropWhile_cons_of_pos (by simpa using fun e => h.1 e.symm)]
      exact ih h.2
  simp only [ignoreUntil, this]

theorem ignoreUntil_none {d : Char} {l : List Char} (h : d ∉ l) : ignoreUntil d (.good l) = .eof := by
  have : l.dropWhile (· ≠ d) = [] := by
    induction l with
    | nil => rfl
    | cons x l ih =>
      rw [List.mem_cons, not_or] at h
      rw [List.dropWhile_cons_of_pos (by simpa using fun e => h.1 e.symm)]
      exact ih h.2
  simp only [ignoreUntil, this]

theorem optionText_named {names : List (Nat × List Char)} {o : Nat} (h : Named names o) : ∃ x ∈ names, x.1 = o ∧ optionText names o = x.2 := by
  unfold optionText
  cases hf : names.find? (fun x => x.1 = o) with
  | none =>
    obtain ⟨x, hx, hxo⟩ := h
    rw [List.find?_eq_none] at hf
    exact absurd hxo (by simpa using hf x hx)
  | some x => exact ⟨x, List.mem_of_find?_eq_some hf, by simpa using List.find?_some hf, rfl⟩

/-- An option after its label. -/
theorem option_stage {names : List (Nat × List Char)} (hn : GoodNames names) {o : Nat} (ho : Named names o) {pre : List Char} (hp : ':' ∉ pre) {sep : Char}
    (hs : isOptionChar sep = false) (rest : List Char) :
    readOptionFrom names (ignoreUntil ':' (.good (pre ++ ':' :: ' ' :: (optionText names o ++ sep :: rest)))) = .ok (o, .good rest) := by
  obtain ⟨x, hx, hxo, ht⟩ := optionText_named ho
  rw [ignoreUntil_of hp, ht]
  have := C49_read_back_partial names hn hx [' '] (by decide) sep hs rest
  simp only [readOptionFrom]
  rw [List.singleton_append, List.cons_append] at this
  rw [this]
  simp only [Outcome.bind, hxo]

/-- Where the text of an option may be cut. -/
theorem option_cut {names : List (Nat × List Char)} (hn : GoodNames names) {o : Nat} (ho : Named names o) {pre : List Char} (hp : ':' ∉ pre) {sep : Char}
    (hs : isOptionChar sep = false) {rest p : List Char} (h : p <+: pre ++ ':' :: ' ' :: (optionText names o ++ sep :: rest)) :
    readOptionFrom names (ignoreUntil ':' (.good p)) = .diverges ∨
      ∃ p', p' <+: rest ∧ p = pre ++ ':' :: ' ' :: (optionText names o ++ sep :: p') ∧
        readOptionFrom names (ignoreUntil ':' (.good p)) = .ok (o, .good p') := by
  obtain ⟨x, hx, hxo, ht⟩ := optionText_named ho
  have hnone : ∀ l : List Char, ':' ∉ l → readOptionFrom names (ignoreUntil ':' (.good l)) = .diverges := by
    intro l hl; rw [ignoreUntil_none hl]; rfl
  rcases List.prefix_or_prefix_of_prefix h (List.prefix_append pre _) with h1 | ⟨p1, rfl⟩
  · exact Or.inl (hnone p fun hc => hp (h1.subset hc))
  rw [List.prefix_append_right_inj] at h
  cases p1 with
  | nil => rw [List.append_nil]; exact Or.inl (hnone pre hp)
  | cons d p1 =>
    obtain ⟨hd, g1⟩ := List.cons_prefix_cons.1 h
    subst hd
    have hig := ignoreUntil_of hp p1
    cases p1 with
    | nil => left; rw [hig]; rfl
    | cons d p2 =>
      obtain ⟨hd, g2⟩ := List.cons_prefix_cons.1 g1
      subst hd
      have hshort : p2 <+: optionText names o → readOptionFrom names (ignoreUntil ':' (.good (pre ++ ':' :: ' ' :: p2))) = .diverges := by
        intro h2
        rw [hig]
        cases p2 with
        | nil => rfl
        | cons c q =>
          have hmem : ∀ y ∈ c :: q, isOptionChar y = true ∧ y.isWhitespace = false := fun y hy => hn.chars x hx y (by rw [← ht]; exact h2.subset hy)
          have := skipSpace_of [' '] (by decide) c (hmem c (by simp)).2 q
          rw [List.singleton_append] at this
          simp only [readOptionFrom, readOption, this, Outcome.bind]
          rw [collect_end q (fun y hy => (hmem y (by simp [hy])).1) c (hmem c (by simp)).1]
      rcases List.prefix_or_prefix_of_prefix g2 (List.prefix_append (optionText names o) (sep :: rest)) with h2 | ⟨p3, hp3⟩
      · exact Or.inl (hshort h2)
      rw [← hp3] at g2 hshort ⊢
      rw [List.prefix_append_right_inj] at g2
      cases p3 with
      | nil => left; rw [List.append_nil] at hshort ⊢; exact hshort (List.prefix_refl _)
      | cons d p4 =>
        obtain ⟨hd, g3⟩ := List.cons_prefix_cons.1 g2
        subst hd
        exact Or.inr ⟨p4, g3, rfl, option_stage hn ho hp hs p4⟩

theorem suffix_dropWhile (f : Char → Bool) (l : List Char) : l.dropWhile f <:+ l := List.dropWhile_suffix f

theorem scanSign_suffix (l : List Char) : (scanSign l).2 <:+ l := by
  unfold scanSign
  split
  · exact List.suffix_cons _ _
  · exact List.suffix_cons _ _
  · exact List.suffix_refl _

theorem scanFrac_suffix (l : List Char) : (scanFrac l).2 <:+ l := by
  unfold scanFrac
  split
  · exact (suffix_dropWhile _ _).trans (List.suffix_cons _ _)
  · exact List.suffix_refl _

theorem scanExp_suffix {l r : List Char} {e : Int} (h : scanExp l = some (e, r)) : r <:+ l := by
  cases l with
  | nil => simp only [scanExp, Option.some.injEq, Prod.mk.injEq] at h; rw [← h.2]
  | cons c l =>
    simp only [scanExp] at h
    by_cases h1 : c = 'e' ∨ c = 'E'
    · rw [if_pos h1] at h
      by_cases h2 : (scanSign l).2.takeWhile isDigitChar = []
      · rw [if_pos h2] at h; cases h
      · rw [if_neg h2] at h
        rw [← (Prod.mk.inj (Option.some.inj h)).2]
        exact ((suffix_dropWhile _ _).trans (scanSign_suffix _)).trans (List.suffix_cons _ _)
    · rw [if_neg h1] at h
      rw [← (Prod.mk.inj (Option.some.inj h)).2]

theorem endState_good {ok : Bool} {l r : List Char} (h : endState ok l = .good r) : r = l := by
  unfold endState at h
  split at h
  · cases h
  · split_ifs at h
    exact (InStream.good.inj h).symm

theorem readDouble_suffix {l r : List Char} (h : (readDouble (.good l)).2 = .good r) : r <:+ l := by
  have h0 : (scanFrac ((scanSign (l.dropWhile isSpaceChar)).2.dropWhile isDigitChar)).2 <:+ l :=
    (((scanFrac_suffix _).trans (suffix_dropWhile _ _)).trans (scanSign_suffix _)).trans (suffix_dropWhile _ _)
  simp only [readDouble] at h
  obtain ⟨sg, hsg⟩ : ∃ sg, sg = (scanSign (l.dropWhile isSpaceChar)).1 := ⟨_, rfl⟩
  obtain ⟨fr, hfr⟩ : ∃ fr, fr = scanFrac ((scanSign (l.dropWhile isSpaceChar)).2.dropWhile isDigitChar) := ⟨_, rfl⟩
  rw [← hfr] at h h0
  by_cases h1 : (scanSign (l.dropWhile isSpaceChar)).2.takeWhile isDigitChar ++ fr.1 = []
  · rw [if_pos h1] at h
    rw [endState_good h]; exact h0
  · rw [if_neg h1] at h
    cases he : scanExp fr.2 with
    | none =>
      rw [he] at h
      rw [endState_good h]
      exact (scanSign_suffix _).trans ((List.tail_suffix _).trans h0)
    | some x =>
      rw [he] at h
      rw [endState_good h]
      exact (scanExp_suffix (e := x.1) (r := x.2) he).trans h0

theorem readNat_suffix {l r : List Char} (h : (readNat (.good l)).2 = .good r) : r <:+ l := by
  have h0 : (scanSign (l.dropWhile isSpaceChar)).2.dropWhile isDigitChar <:+ l :=
    ((suffix_dropWhile _ _).trans (scanSign_suffix _)).trans (suffix_dropWhile _ _)
  simp only [readNat] at h
  split_ifs at h <;> rw [endState_good h] <;> exact h0

theorem readLong_suffix {l r : List Char} (h : (readLong (.good l)).2 = .good r) : r <:+ l := by
  have h0 : (scanSign (l.dropWhile isSpaceChar)).2.dropWhile isDigitChar <:+ l :=
    ((suffix_dropWhile _ _).trans (scanSign_suffix _)).trans (suffix_dropWhile _ _)
  simp only [readLong] at h
  split_ifs at h <;> rw [endState_good h] <;> exact h0

/-- A stream in which no colon is left. -/
def NoColon : InStream → Prop
  | .good l => ':' ∉ l
  | _ => True

theorem ignore_noColon {s : InStream} (h : NoColon s) (names : List (Nat × List Char)) : readOptionFrom names (ignoreUntil ':' s) = .diverges := by
  cases s with
  | good l => rw [ignoreUntil_none h]; rfl
  | eof => rfl
  | failed => rfl

theorem noColon_of {f : InStream → InStream} (hg : ∀ l r, f (.good l) = .good r → r <:+ l) (he : f .eof = .eof) (hf : f .failed = .failed) {s : InStream}
    (h : NoColon s) : NoColon (f s) := by
  cases s with
  | good l =>
    cases hs : f (.good l) with
    | good r => exact fun hc => h ((hg l r hs).subset hc)
    | eof => trivial
    | failed => trivial
  | eof => rw [he]; trivial
  | failed => rw [hf]; trivial

theorem fixedText_chars (q : Rat) : ∀ c ∈ fixedText q, isDigitChar c = true ∨ c = '-' ∨ c = '.' := by
  intro c hc
  unfold fixedText at hc
  rw [List.append_assoc, List.mem_append, List.mem_append, List.mem_cons] at hc
  rcases hc with hc | hc | rfl | hc
  · split_ifs at hc
    · right; left; simpa using hc
    · simp at hc
  · exact Or.inl (natText_digits _ c hc)
  · exact Or.inr (Or.inr rfl)
  · exact Or.inl (paddedText_digits _ _ c hc)

/-- The labels of `Configuration::toString`. -/
def label1 : List Char := "{Interaction Type".toList
def label2 : List Char := ", Container".toList
def label3 : List Char := ", CellSizeFactor".toList
def label4 : List Char := " , Traversal".toList
def label5 : List Char := ", Load Estimator".toList
def label6 : List Char := ", Data Layout".toList
def label7 : List Char := ", Newton 3".toList

theorem configText_eq (t : OptionTables) (c : Configuration Rat) (rest : List Char) : configText t c ++ rest =
    label1 ++ ':' :: ' ' :: (optionText t.interactionType c.interactionType ++ ' ' :: (label2 ++ ':' :: ' ' :: (optionText t.container c.container ++ ' ' ::
    (label3 ++ ':' :: ' ' :: (fixedText c.cellSizeFactor ++ (label4 ++ ':' :: ' ' :: (optionText t.traversal c.traversal ++ ' ' ::
    (label5 ++ ':' :: ' ' :: (optionText t.loadEstimator c.loadEstimator ++ ' ' :: (label6 ++ ':' :: ' ' :: (optionText t.dataLayout c.dataLayout ++ ' ' ::
    (label7 ++ ':' :: ' ' :: (optionText t.newton3 c.newton3 ++ '}' :: rest))))))))))))) := by
  have e1 : "{Interaction Type: ".toList = label1 ++ [':', ' '] := by decide
  have e2 : " , Container: ".toList = ' ' :: (label2 ++ [':', ' ']) := by decide
  have e3 : " , CellSizeFactor: ".toList = ' ' :: (label3 ++ [':', ' ']) := by decide
  have e4 : " , Traversal: ".toList = label4 ++ [':', ' '] := by decide
  have e5 : " , Load Estimator: ".toList = ' ' :: (label5 ++ [':', ' ']) := by decide
  have e6 : " , Data Layout: ".toList = ' ' :: (label6 ++ [':', ' ']) := by decide
  have e7 : " , Newton 3: ".toList = ' ' :: (label7 ++ [':', ' ']) := by decide
  unfold configText
  rw [e1, e2, e3, e4, e5, e6, e7]
  simp only [List.append_assoc, List.cons_append, List.nil_append, List.singleton_append]

theorem label4_eq : label4 = ' ' :: ", Traversal".toList := by decide

theorem readConfig_text {t : OptionTables} (ht : GoodTables t) {c : Configuration Rat} (hc : Writable t c) {ws : List Char} (hws : ':' ∉ ws) (rest : List Char) :
    readConfig t (.good (ws ++ (configText t c ++ rest))) = .ok (c, .good rest) := by
  rw [configText_eq, ← List.append_assoc ws]
  unfold readConfig
  have hl1 : ':' ∉ ws ++ label1 := by
    rw [List.mem_append, not_or]; exact ⟨hws, by decide⟩
  rw [option_stage ht.interactionType hc.interactionType hl1 (by decide)]
  simp only [Outcome.bind]
  rw [option_stage ht.container hc.container (by decide) (by decide)]
  simp only
  rw [ignoreUntil_of (by decide : ':' ∉ label3)]
  have hd := readDouble_fixedText c.cellSizeFactor (ws := [' ']) (by decide) (c := ' ') (by decide)
  have hd' : ∀ r, readDouble (.good (' ' :: (fixedText c.cellSizeFactor ++ (label4 ++ r)))) = (c.cellSizeFactor, .good (label4 ++ r)) := by
    intro r
    have := hd (", Traversal".toList ++ r)
    rw [round6_exact hc.cellSizeFactor] at this
    rw [label4_eq]
    simpa using this
  rw [hd']
  simp only
  rw [option_stage ht.traversal hc.traversal (by decide) (by decide)]
  simp only
  rw [option_stage ht.loadEstimator hc.loadEstimator (by decide) (by decide)]
  simp only
  rw [option_stage ht.dataLayout hc.dataLayout (by decide) (by decide)]
  simp only
  rw [option_stage ht.newton3 hc.newton3 (by decide) (by decide)]

/-- A configuration that is cut before its closing brace. -/
theorem readConfig_cut {t : OptionTables} (ht : GoodTables t) {c : Configuration Rat} (hc : Writable t c) {ws : List Char} (hws : ':' ∉ ws) {rest p : List Char}
    (hp : p <+: ws ++ (configText t c ++ rest)) (hbrace : '}' ∉ p) : readConfig t (.good p) = .diverges := by
  rw [configText_eq, ← List.append_assoc ws] at hp
  have hl1 : ':' ∉ ws ++ label1 := by
    rw [List.mem_append, not_or]; exact ⟨hws, by decide⟩
  unfold readConfig
  rcases option_cut ht.interactionType hc.interactionType hl1 (by decide) hp with h | ⟨p1, hp1, rfl, h⟩
  · rw [h]; rfl
  rw [h]
  simp only [Outcome.bind]
  have hb1 : '}' ∉ p1 := fun hm => hbrace (by simp [hm])
  rcases option_cut ht.container hc.container (by decide) (by decide) hp1 with h | ⟨p2, hp2, rfl, h⟩
  · rw [h]
  rw [h]
  simp only
  have hb2 : '}' ∉ p2 := fun hm => hb1 (by simp [hm])
  -- the cell size factor and the label behind it
  have hA : (NoColon (readDouble (ignoreUntil ':' (.good p2))).2) ∨
      ∃ p3, p3 <+: label4 ++ ':' :: ' ' :: (optionText t.traversal c.traversal ++ ' ' ::
        (label5 ++ ':' :: ' ' :: (optionText t.loadEstimator c.loadEstimator ++ ' ' :: (label6 ++ ':' :: ' ' :: (optionText t.dataLayout c.dataLayout ++ ' ' ::
        (label7 ++ ':' :: ' ' :: (optionText t.newton3 c.newton3 ++ '}' :: rest))))))) ∧
        '}' ∉ p3 ∧ (readDouble (ignoreUntil ':' (.good p2))).2 = .good p3 := by
    have hno : ∀ s, NoColon s → NoColon (readDouble s).2 := fun s hs =>
      noColon_of (f := fun s => (readDouble s).2) (fun _ _ => readDouble_suffix) rfl rfl hs
    rcases List.prefix_or_prefix_of_prefix hp2 (List.prefix_append label3 _) with h1 | ⟨q, rfl⟩
    · left
      apply hno
      rw [ignoreUntil_none fun hm => absurd (h1.subset hm) (by decide)]
      trivial
    rw [List.prefix_append_right_inj] at hp2
    cases q with
    | nil =>
      left
      apply hno
      rw [List.append_nil, ignoreUntil_none (by decide)]
      trivial
    | cons d q =>
      obtain ⟨hd, g2⟩ := List.cons_prefix_cons.1 hp2
      subst hd
      rw [ignoreUntil_of (by decide : ':' ∉ label3)]
      by_cases hcol : ':' ∈ q
      · right
        have hf : ':' ∉ ' ' :: fixedText c.cellSizeFactor := by
          rw [List.mem_cons, not_or]
          refine ⟨by decide, fun hm => ?_⟩
          rcases fixedText_chars _ _ hm with h | h | h <;> exact absurd h (by decide)
        rcases List.prefix_or_prefix_of_prefix g2 (show ' ' :: (fixedText c.cellSizeFactor ++ label4) <+: _ from by
            rw [← List.append_assoc, ← List.cons_append]; exact List.prefix_append _ _) with h2 | ⟨q', hq'⟩
        · exfalso
          have := h2.subset hcol
          rw [← List.cons_append, List.mem_append] at this
          rcases this with h3 | h3
          · exact hf h3
          · exact absurd h3 (by decide)
        · rw [← hq'] at g2 hb2 ⊢
          refine ⟨label4 ++ q', ?_, ?_, ?_⟩
          · rw [List.prefix_append_right_inj]
            rw [List.cons_append, List.cons_prefix_cons, List.append_assoc, List.prefix_append_right_inj, List.prefix_append_right_inj] at g2
            exact g2.2
          · intro hm
            apply hb2
            rw [List.mem_append] at hm
            simp only [List.mem_append, List.mem_cons, List.cons_append]
            tauto
          · have := readDouble_fixedText c.cellSizeFactor (ws := [' ']) (by decide) (c := ' ') (by decide) (", Traversal".toList ++ q')
            have h4 : ' ' :: (fixedText c.cellSizeFactor ++ label4) ++ q' = [' '] ++ fixedText c.cellSizeFactor ++ ' ' :: (", Traversal".toList ++ q') := by
              rw [label4_eq]; simp
            rw [h4, this, label4_eq]
            rfl
      · left
        exact hno (.good q) hcol
  rcases hA with h | ⟨p3, hp3, hb3, h⟩
  · rw [ignore_noColon h]
  rw [h]
  rcases option_cut ht.traversal hc.traversal (by decide) (by decide) hp3 with h | ⟨p4, hp4, rfl, h⟩
  · rw [h]
  rw [h]
  simp only
  have hb4 : '}' ∉ p4 := fun hm => hb3 (by simp [hm])
  rcases option_cut ht.loadEstimator hc.loadEstimator (by decide) (by decide) hp4 with h | ⟨p5, hp5, rfl, h⟩
  · rw [h]
  rw [h]
  simp only
  have hb5 : '}' ∉ p5 := fun hm => hb4 (by simp [hm])
  rcases option_cut ht.dataLayout hc.dataLayout (by decide) (by decide) hp5 with h | ⟨p6, hp6, rfl, h⟩
  · rw [h]
  rw [h]
  simp only
  have hb6 : '}' ∉ p6 := fun hm => hb5 (by simp [hm])
  rcases option_cut ht.newton3 hc.newton3 (by decide) (by decide) hp6 with h | ⟨p7, hp7, rfl, h⟩
  · rw [h]
  · exact absurd (by simp) hb6

/-! ### Evidence -/

theorem readEvidence_text {t : OptionTables} (ht : GoodTables t) {c : Configuration Rat} (hc : Writable t c) {v : Int} (h1 : -2 ^ 63 ≤ v) (h2 : v < 2 ^ 63)
    {i : Nat} (h3 : i < 2 ^ 64) (rest : List Char) :
    readEvidence t (.good (intText v ++ ' ' :: (natText i ++ ' ' :: (configText t c ++ rest)))) = .ok (v, i, c) := by
  unfold readEvidence
  have e1 := readLong_text h1 h2 (ws := []) (by simp) (c := ' ') (by decide) (natText i ++ ' ' :: (configText t c ++ rest))
  have e2 := readNat_text h3 (ws := [' ']) (by decide) (c := ' ') (by decide) (configText t c ++ rest)
  rw [List.nil_append] at e1
  rw [List.singleton_append, List.cons_append] at e2
  have e3 := readConfig_text ht hc (ws := [' ']) (by decide) rest
  rw [List.singleton_append] at e3
  simp only [e1, e2, e3, Outcome.bind]

theorem intText_chars (n : Int) : ∀ c ∈ intText n, isDigitChar c = true ∨ c = '-' := by
  intro c hc
  unfold intText at hc
  rw [List.mem_append] at hc
  rcases hc with hc | hc
  · split_ifs at hc
    · right; simpa using hc
    · simp at hc
  · exact Or.inl (natText_digits _ c hc)

theorem readEvidence_cut {t : OptionTables} (ht : GoodTables t) {c : Configuration Rat} (hc : Writable t c) {v : Int} (h1 : -2 ^ 63 ≤ v) (h2 : v < 2 ^ 63)
    {i : Nat} (h3 : i < 2 ^ 64) {rest p : List Char} (hp : p <+: intText v ++ ' ' :: (natText i ++ ' ' :: (configText t c ++ rest)))
    (hbrace : '}' ∉ p) : readEvidence t (.good p) = .diverges := by
  by_cases hcol : ':' ∈ p
  · -- both numbers are complete
    have hA : ':' ∉ intText v ++ ' ' :: (natText i ++ [' ']) := by
      intro hm
      simp only [List.mem_append, List.mem_cons, List.not_mem_nil, or_false] at hm
      rcases hm with hm | hm | hm | hm
      · rcases intText_chars _ _ hm with h | h <;> exact absurd h (by decide)
      · exact absurd hm (by decide)
      · exact absurd (natText_digits _ _ hm) (by decide)
      · exact absurd hm (by decide)
    have hsplit : intText v ++ ' ' :: (natText i ++ ' ' :: (configText t c ++ rest)) = (intText v ++ ' ' :: (natText i ++ [' '])) ++ (configText t c ++ rest) := by
      simp
    rw [hsplit] at hp
    rcases List.prefix_or_prefix_of_prefix hp (List.prefix_append _ _) with h | ⟨q, rfl⟩
    · exact absurd (h.subset hcol) hA
    rw [List.prefix_append_right_inj] at hp
    unfold readEvidence
    have e1 := readLong_text h1 h2 (ws := []) (by simp) (c := ' ') (by decide) (natText i ++ ' ' :: q)
    have e2 := readNat_text h3 (ws := [' ']) (by decide) (c := ' ') (by decide) q
    rw [List.nil_append] at e1
    rw [List.singleton_append, List.cons_append] at e2
    have e3 := readConfig_cut ht hc (ws := [' ']) (by decide) (rest := rest) (p := ' ' :: q) (by simpa using hp)
      (by intro hm; apply hbrace; simp only [List.mem_cons] at hm; rcases hm with hm | hm; exact absurd hm (by decide); simp [hm])
    have hq : (intText v ++ ' ' :: (natText i ++ [' '])) ++ q = intText v ++ ' ' :: (natText i ++ ' ' :: q) := by simp
    rw [hq]
    simp only [e1, e2, e3, Outcome.bind]
  · unfold readEvidence readConfig
    have n1 : NoColon (readLong (.good p)).2 := noColon_of (f := fun s => (readLong s).2) (fun _ _ => readLong_suffix) rfl rfl (s := .good p) hcol
    have n2 : NoColon (readNat (readLong (.good p)).2).2 := noColon_of (f := fun s => (readNat s).2) (fun _ _ => readNat_suffix) rfl rfl n1
    simp only [ignore_noColon n2, Outcome.bind]

end Verif
