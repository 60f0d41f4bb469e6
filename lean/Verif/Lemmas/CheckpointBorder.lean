import Verif.Lemmas.CheckpointNumbers
import Verif.Lemmas.LogicControl
/-! The precision of positions close to the border of the box. -/
namespace Verif

open Spec.Checkpoint

theorem nearest_of_half {x : Rat} {r : Int} (h1 : |x - r| ≤ 1 / 2) (k : Int) : |x - r| ≤ |x - k| := by
  by_cases h : k = r
  · rw [h]
  · have h2 : (1 : Rat) ≤ |((r - k : Int) : Rat)| := by
      rw [← Int.cast_abs]
      exact_mod_cast Int.one_le_abs (sub_ne_zero.2 (Ne.symm h))
    have h3 : |((r - k : Int) : Rat)| ≤ |x - r| + |x - k| := by
      push_cast
      calc |(r : Rat) - k| = |(x - k) - (x - r)| := by congr 1; ring
        _ ≤ |x - k| + |x - r| := abs_sub _ _
        _ = _ := add_comm _ _
    linarith

theorem roundHalfAway_near {x : Rat} (h : 0 ≤ x) : |x - roundHalfAway x| ≤ 1 / 2 := by
  rw [roundHalfAway, if_pos h, abs_le]
  have h0 := Int.floor_le (x + 1 / 2)
  have h1 := Int.lt_floor_add_one (x + 1 / 2)
  constructor <;> linarith

theorem roundHalfEven_le_away {x : Rat} (h : 0 ≤ x) : roundHalfEven x ≤ roundHalfAway x := by
  rw [roundHalfAway, if_pos h]
  have h0 := Int.floor_le x
  unfold roundHalfEven
  split_ifs with h1
  · exact Int.floor_le_floor (by linarith)
  all_goals
    rw [Int.le_floor]
    push_cast
    linarith

theorem roundHalfEven_eq_away {x : Rat} (h : 0 ≤ x) (ht : Int.fract x ≠ 1 / 2) : roundHalfEven x = roundHalfAway x := by
  rw [roundHalfAway, if_pos h]
  have h0 := Int.floor_le x
  have h1 := Int.lt_floor_add_one x
  have hf : Int.fract x = x - ⌊x⌋ := rfl
  rw [hf] at ht
  symm
  unfold roundHalfEven
  split_ifs with h2 h3
  · rw [Int.floor_eq_iff]; constructor <;> linarith
  · rw [Int.floor_eq_iff]; push_cast; constructor <;> linarith
  · exact absurd (le_antisymm (not_lt.1 h3) (not_lt.1 h2)) ht
  · exact absurd (le_antisymm (not_lt.1 h3) (not_lt.1 h2)) ht

theorem roundHalfAway_neg (x : Rat) : roundHalfAway (-x) = -roundHalfAway x := by
  unfold roundHalfAway
  rcases lt_trichotomy x 0 with h | h | h
  · rw [if_pos (by linarith), if_neg (by linarith), neg_neg]
  · subst h; norm_num
  · rw [if_neg (by linarith), if_pos (by linarith), neg_neg]

theorem roundFloating_neg (d : Rat) (P : Nat) : roundFloating (-d) P = -roundFloating d P := by
  unfold roundFloating
  by_cases h : d = 0
  · simp [h]
  · rw [if_neg h, if_neg (neg_ne_zero.2 h), abs_neg]
    dsimp only
    rw [neg_mul, roundHalfAway_neg]
    push_cast
    ring

/-- `roundFloating` of a positive number: the number itself if it is a power of ten, otherwise the scaled number rounded. -/
theorem roundFloating_pos (P : Nat) {d : Rat} (hd : 0 < d) :
    (d = (10 : Rat) ^ Int.log 10 d ∧ roundFloating d P = d) ∨
      roundFloating d P = roundHalfAway (d * (10 : Rat) ^ ((P : Int) - 1 - Int.log 10 d)) * (10 : Rat) ^ (Int.log 10 d - ((P : Int) - 1)) := by
  have h1 : (10 : Rat) ^ Int.log 10 d ≤ d := by exact_mod_cast Int.zpow_log_le_self (b := 10) (by norm_num) hd
  have h2 : d < (10 : Rat) ^ (Int.log 10 d + 1) := by exact_mod_cast Int.lt_zpow_succ_log_self (b := 10) (by norm_num) d
  set e := Int.log 10 d with he
  unfold roundFloating
  rw [if_neg hd.ne', abs_of_pos hd]
  dsimp only
  rcases h1.eq_or_lt with heq | hlt
  · left
    refine ⟨heq.symm, ?_⟩
    have hc : Int.clog 10 d = e := by
      rw [← heq]
      exact_mod_cast Int.clog_zpow (R := Rat) (b := 10) (by norm_num) e
    have hx : d * (10 : Rat) ^ ((P : Int) - e) = (((10 ^ P : Nat) : Int) : Rat) := by
      rw [← heq, ← zpow_add₀ (by norm_num)]
      push_cast
      rw [← zpow_natCast]
      congr 1
      ring
    have hr : roundHalfAway ((((10 ^ P : Nat) : Int) : Rat)) = ((10 ^ P : Nat) : Int) := by
      rw [roundHalfAway, if_pos (by positivity), Int.floor_eq_iff]
      constructor <;> linarith
    rw [hc, hx, hr, ← hx, mul_div_assoc, div_self (zpow_ne_zero _ (by norm_num)), mul_one]
  · right
    have hc : Int.clog 10 d = e + 1 := by
      have a : d ≤ (10 : Rat) ^ Int.clog 10 d := by exact_mod_cast Int.self_le_zpow_clog (b := 10) (by norm_num) d
      have b : (10 : Rat) ^ (Int.clog 10 d - 1) < d := by exact_mod_cast Int.zpow_pred_clog_lt_self (b := 10) (by norm_num) hd
      have a' := (zpow_lt_zpow_iff_right₀ (by norm_num : (1 : Rat) < 10)).1 (hlt.trans_le a)
      have b' := (zpow_lt_zpow_iff_right₀ (by norm_num : (1 : Rat) < 10)).1 (b.trans h2)
      omega
    rw [hc, show (P : Int) - (e + 1) = (P : Int) - 1 - e by ring, div_eq_mul_inv, ← zpow_neg]
    congr 2
    ring

/-- The powers of ten are printed exactly. -/
theorem roundSig_decimal {P : Nat} (hP : 1 ≤ P) {d : Rat} (h : Decimal P d) : roundSig P d = d := by
  have := (roundSig_closest hP d).2 d h
  rw [sub_self, abs_zero] at this
  linarith [abs_eq_zero.1 (le_antisymm this (abs_nonneg _))]

theorem decimal_zpow {P : Nat} (hP : 1 ≤ P) (e : Int) : Decimal P ((10 : Rat) ^ e) :=
  ⟨1, e, by rw [abs_one]; exact_mod_cast Nat.one_lt_pow (by omega) (by norm_num), by simp⟩

theorem decimal_mono {P Q : Nat} (h : P ≤ Q) {r : Rat} (hr : Decimal P r) : Decimal Q r := by
  obtain ⟨m, e, hm, rfl⟩ := hr
  exact ⟨m, e, hm.trans_le (pow_le_pow_right₀ (by norm_num) h), rfl⟩

theorem scaled_nonneg {d : Rat} (hd : 0 < d) (k : Int) : 0 ≤ d * (10 : Rat) ^ k :=
  mul_nonneg hd.le (zpow_nonneg (by norm_num) _)

/-- `roundFloating` yields a closest decimal too, and for positive numbers never a smaller one than the printed one. -/
theorem roundFloating_spec {P : Nat} (hP : 1 ≤ P) {d : Rat} (hd : 0 < d) :
    Closest P d (roundFloating d P) ∧ roundSig P d ≤ roundFloating d P ∧
      ((∀ k : Int, Int.fract (d * (10 : Rat) ^ k) ≠ 1 / 2) → roundSig P d = roundFloating d P) := by
  rcases roundFloating_pos P hd with ⟨h1, h2⟩ | h
  · have hdec : Decimal P d := by rw [h1]; exact decimal_zpow hP _
    have := roundSig_decimal hP hdec
    rw [h2]
    refine ⟨⟨hdec, fun r' _ => ?_⟩, this.le, fun _ => this⟩
    rw [sub_self, abs_zero]
    exact abs_nonneg _
  · have hx := scaled_nonneg hd ((P : Int) - 1 - Int.log 10 d)
    rw [h, roundSig_pos hP hd]
    refine ⟨closest_of_nearest hP hd fun j => nearest_of_half (roundHalfAway_near hx) j, ?_, fun ht => ?_⟩
    · refine mul_le_mul_of_nonneg_right ?_ (zpow_nonneg (by norm_num) _)
      exact_mod_cast roundHalfEven_le_away hx
    · rw [roundHalfEven_eq_away hx (ht _)]

/-- How precise printed numbers are. -/
theorem roundSig_error {P : Nat} (hP : 1 ≤ P) {q : Rat} (hq : q ≠ 0) :
    |q - roundSig P q| ≤ (10 : Rat) ^ (Int.log 10 |q| - ((P : Int) - 1)) / 2 := by
  have pos : ∀ a : Rat, 0 < a → |a - roundSig P a| ≤ (10 : Rat) ^ (Int.log 10 a - ((P : Int) - 1)) / 2 := by
    intro a ha
    rw [roundSig_pos hP ha]
    have hu0 : (0 : Rat) < (10 : Rat) ^ (Int.log 10 a - ((P : Int) - 1)) := zpow_pos (by norm_num) _
    have hinv : (10 : Rat) ^ ((P : Int) - 1 - Int.log 10 a) * (10 : Rat) ^ (Int.log 10 a - ((P : Int) - 1)) = 1 := by
      rw [← zpow_add₀ (by norm_num)]
      simp
    have hn := roundHalfEven_near (a * (10 : Rat) ^ ((P : Int) - 1 - Int.log 10 a))
    set x := a * (10 : Rat) ^ ((P : Int) - 1 - Int.log 10 a) with hx
    set u := (10 : Rat) ^ (Int.log 10 a - ((P : Int) - 1)) with hu
    have hax : a = x * u := by rw [hx, mul_assoc, hinv, mul_one]
    have : |a - roundHalfEven x * u| = |x - roundHalfEven x| * u := by
      conv_lhs => rw [hax]
      rw [← sub_mul, abs_mul, abs_of_pos hu0]
    rw [this]
    nlinarith
  rcases lt_or_gt_of_ne hq with h | h
  · have := pos (-q) (by linarith)
    rw [roundSig_neg] at this
    rw [abs_of_neg h, show q - roundSig P q = -(-q - -roundSig P q) by ring, abs_neg]
    exact this
  · rw [abs_of_pos h]
    exact pos q h

theorem precisionLoop_spec {p b : Rat} : ∀ {fuel prec P : Nat}, prec ≤ 15 → precisionLoop p b fuel prec = .ok P →
    prec ≤ P ∧ P ≤ 15 ∧ (1 / 10 ^ P : Rat) < |roundFloating p P - b| := by
  intro fuel
  induction fuel with
  | zero => intro prec P _ h; simp [precisionLoop] at h
  | succ k ih =>
    intro prec P hle h
    rw [precisionLoop] at h
    split_ifs at h with h1 h2
    · obtain ⟨a, b, c⟩ := ih (by omega) h
      exact ⟨by omega, b, c⟩
    · obtain rfl := Outcome.ok.inj h
      refine ⟨le_rfl, hle, ?_⟩
      simpa [isNearAbs] using h1

theorem positionPrecision_range {p b : Rat} {P : Nat} (h : positionPrecision p b = .ok P) : 6 ≤ P ∧ P ≤ 15 := by
  unfold positionPrecision at h
  split_ifs at h
  · obtain ⟨a, b, _⟩ := precisionLoop_spec (by norm_num) h
    exact ⟨a, b⟩
  · obtain rfl := Outcome.ok.inj h
    norm_num

/-- A closest decimal does not cross a border that is a decimal itself. -/
theorem closest_le {P : Nat} {q r b : Rat} (hc : Closest P q r) (hb : Decimal P b) (h : q ≤ b) : r ≤ b := by
  by_contra hlt
  rw [not_le] at hlt
  have := hc.2 b hb
  rw [abs_of_nonpos (by linarith), abs_of_nonpos (by linarith)] at this
  linarith

theorem le_closest {P : Nat} {q r b : Rat} (hc : Closest P q r) (hb : Decimal P b) (h : b ≤ q) : b ≤ r := by
  by_contra hlt
  rw [not_le] at hlt
  have := hc.2 b hb
  rw [abs_of_nonneg (by linarith), abs_of_nonneg (by linarith)] at this
  linarith

/-- A stored position is below the border. -/
theorem stored_lt_border {p b : Rat} {P : Nat} (hb : Decimal 6 b) (hp : |p| ≤ 10 ^ 5) (hpb : p < b)
    (htie : 0 ≤ p ∨ ∀ k : Int, Int.fract (p * (10 : Rat) ^ k) ≠ 1 / 2) (hP : positionPrecision p b = .ok P) : roundSig P p < b := by
  obtain ⟨hP6, hP15⟩ := positionPrecision_range hP
  by_cases h0 : p = 0
  · rw [h0, roundSig_zero]
    rwa [h0] at hpb
  unfold positionPrecision at hP
  split_ifs at hP with hnear
  · obtain ⟨_, _, hne⟩ := precisionLoop_spec (by norm_num) hP
    have hb' := decimal_mono hP6 hb
    have hrf : Closest P p (roundFloating p P) ∧ roundSig P p ≤ roundFloating p P := by
      rcases lt_or_gt_of_ne h0 with h | h
      · have ht : ∀ k : Int, Int.fract (p * (10 : Rat) ^ k) ≠ 1 / 2 := htie.resolve_left (not_le.2 h)
        obtain ⟨a, _, c⟩ := roundFloating_spec (by omega : 1 ≤ P) (d := -p) (by linarith)
        have c' := c fun k hk => by
          apply ht k
          rw [neg_mul] at hk
          have h2 : Int.fract (p * (10 : Rat) ^ k) = 1 - Int.fract (-(p * (10 : Rat) ^ k)) := by
            rw [Int.fract_neg]
            · ring
            · intro h3
              obtain ⟨n, hn⟩ := Int.fract_eq_zero_iff.1 h3
              rw [← hn, ← Int.cast_neg, Int.fract_intCast] at hk
              norm_num at hk
          rw [h2, hk]
          norm_num
        rw [roundFloating_neg] at a c'
        rw [roundSig_neg] at c'
        refine ⟨?_, ?_⟩
        · have := closest_neg a
          rwa [neg_neg, neg_neg] at this
        · linarith
      · obtain ⟨a, b, _⟩ := roundFloating_spec (by omega : 1 ≤ P) h
        exact ⟨a, b⟩
    have h1 := closest_le hrf.1 hb' hpb.le
    have h2 : roundFloating p P ≠ b := by
      intro heq
      rw [heq, sub_self, abs_zero] at hne
      have : (0 : Rat) < 1 / 10 ^ P := by positivity
      linarith
    exact hrf.2.trans_lt (lt_of_le_of_ne h1 h2)
  · obtain rfl := Outcome.ok.inj hP
    have herr := roundSig_error (P := 6) (by norm_num) h0
    have ha : 0 < |p| := abs_pos.2 h0
    have h1 : (10 : Rat) ^ Int.log 10 |p| ≤ |p| := by exact_mod_cast Int.zpow_log_le_self (b := 10) (by norm_num) ha
    have hle : Int.log 10 |p| ≤ 5 := by
      have := h1.trans hp
      rw [← zpow_natCast] at this
      exact_mod_cast (zpow_le_zpow_iff_right₀ (by norm_num : (1 : Rat) < 10)).1 this
    rcases hle.eq_or_lt with h5 | h5
    · -- exactly 100000
      rw [h5] at h1
      have hap : |p| = (10 : Rat) ^ (5 : Int) := le_antisymm (by exact_mod_cast hp) h1
      have hdec : Decimal 6 p := by
        rcases abs_choice p with hc | hc
        · rw [← hc, hap]; exact decimal_zpow (by norm_num) _
        · have : p = -(10 : Rat) ^ (5 : Int) := by rw [← hap, hc, neg_neg]
          rw [this]
          exact decimal_neg (decimal_zpow (by norm_num) _)
      rw [roundSig_decimal (by norm_num) hdec]
      exact hpb
    · have hu : (10 : Rat) ^ (Int.log 10 |p| - ((6 : Nat) - 1 : Int)) ≤ (10 : Rat) ^ (-1 : Int) :=
        zpow_le_zpow_right₀ (by norm_num) (by push_cast; omega)
      have : |p - roundSig 6 p| ≤ 1 / 20 := by
        refine herr.trans ?_
        have h10 : (10 : Rat) ^ (-1 : Int) = 1 / 10 := by norm_num
        rw [h10] at hu
        linarith
      rw [abs_le] at this
      linarith [this.1]

end Verif
