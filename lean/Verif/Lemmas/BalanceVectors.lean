import Verif.Model.BalanceVectors
import Mathlib.Data.List.Basic
import Mathlib.Data.List.Perm.Basic
import Mathlib.Algebra.BigOperators.Group.List.Basic
namespace Verif

variable {α : Type} {target rem : Nat}

theorem balFit_perm (t i : Nat) (v tmp : List α) (ftf : Nat) :
    ((balFit t i v tmp ftf).1 ++ (balFit t i v tmp ftf).2.1).Perm (v ++ tmp) := by
  unfold balFit
  split
  · simp only
    conv_rhs => rw [← List.take_append_drop t v]
    rw [List.append_assoc]
    exact List.Perm.append_left _ List.perm_append_comm
  · split
    · simp only
      conv_rhs => rw [← List.take_append_drop (tmp.length - (t - v.length)) tmp]
      rw [List.append_assoc]
      exact List.Perm.append_left _ List.perm_append_comm
    · exact List.Perm.refl _

theorem balScan_perm (pass i : Nat) (vs : List (List α)) (tmp : List α) (ftf : Nat) :
    ((balScan target rem pass i vs tmp ftf).1.flatten ++ (balScan target rem pass i vs tmp ftf).2.1).Perm
      (vs.flatten ++ tmp) := by
  induction vs generalizing i tmp ftf with
  | nil => exact List.Perm.refl _
  | cons v vs ih =>
    have hf := balFit_perm (balTarget target rem i) i v tmp ftf
    simp only [balScan]
    generalize balFit (balTarget target rem i) i v tmp ftf = s at hf
    have h2 : (s.1 ++ (vs.flatten ++ s.2.1)).Perm (v ++ (vs.flatten ++ tmp)) := by
      have h3 : (s.1 ++ (vs.flatten ++ s.2.1)).Perm ((s.1 ++ s.2.1) ++ vs.flatten) := by
        rw [List.append_assoc]; exact List.Perm.append_left _ List.perm_append_comm
      have h4 : ((v ++ tmp) ++ vs.flatten).Perm (v ++ (vs.flatten ++ tmp)) := by
        rw [List.append_assoc]; exact List.Perm.append_left _ List.perm_append_comm
      exact h3.trans ((hf.append_right _).trans h4)
    split
    · simpa [List.append_assoc] using h2
    · simp only [List.flatten_cons, List.append_assoc]
      exact (List.Perm.append_left _ (ih (i + 1) s.2.1 s.2.2)).trans h2

theorem balScan_length (pass i : Nat) (vs : List (List α)) (tmp : List α) (ftf : Nat) :
    (balScan target rem pass i vs tmp ftf).1.length = vs.length := by
  induction vs generalizing i tmp ftf with
  | nil => rfl
  | cons v vs ih =>
    simp only [balScan]
    split
    · simp
    · simp [ih]

theorem balPass_perm (pass : Nat) (vs : List (List α)) (tmp : List α) (ftf : Nat) :
    ((balPass target rem pass vs tmp ftf).1.flatten ++ (balPass target rem pass vs tmp ftf).2.1).Perm
      (vs.flatten ++ tmp) := by
  simp only [balPass, List.flatten_append, List.append_assoc]
  refine (List.Perm.append_left _ (balScan_perm ..)).trans ?_
  rw [← List.append_assoc, ← List.flatten_append, List.take_append_drop]

theorem balPass_length (pass : Nat) (vs : List (List α)) (tmp : List α) (ftf : Nat) :
    (balPass target rem pass vs tmp ftf).1.length = vs.length := by
  simp only [balPass, List.length_append, balScan_length]
  rw [← List.length_append, List.take_append_drop]

/-- Missing elements of the vectors with index ≥ `i`. -/
def balDeficit (target rem : Nat) : Nat → List (List α) → Nat
  | _, [] => 0
  | i, v :: vs => (balTarget target rem i - v.length) + balDeficit target rem (i + 1) vs

/-- No vector with index ≥ `i` is too long. -/
def balNoExcess (target rem : Nat) : Nat → List (List α) → Prop
  | _, [] => True
  | i, v :: vs => v.length ≤ balTarget target rem i ∧ balNoExcess target rem (i + 1) vs

/-- All vectors have their target size. -/
def balExact (target rem : Nat) : Nat → List (List α) → Prop
  | _, [] => True
  | i, v :: vs => v.length = balTarget target rem i ∧ balExact target rem (i + 1) vs

/-- Sum of the target sizes of `n` vectors from index `i`. -/
def balTotal (target rem : Nat) : Nat → Nat → Nat
  | _, 0 => 0
  | i, n + 1 => balTarget target rem i + balTotal target rem (i + 1) n

theorem balTotal_eq (i n : Nat) : balTotal target rem i n = n * target + (min (rem - i) n) := by
  induction n generalizing i with
  | zero => simp [balTotal]
  | succ n ih =>
    simp only [balTotal, ih, balTarget]
    rw [Nat.add_mul, Nat.one_mul]
    split <;> omega

theorem balExact_of_deficit {i : Nat} {vs : List (List α)} (hn : balNoExcess target rem i vs)
    (hd : balDeficit target rem i vs = 0) : balExact target rem i vs := by
  induction vs generalizing i with
  | nil => trivial
  | cons v vs ih =>
    simp only [balNoExcess, balDeficit, balExact] at *
    exact ⟨by omega, ih hn.2 (by omega)⟩

theorem balDeficit_add {i : Nat} {vs : List (List α)} (hn : balNoExcess target rem i vs) :
    vs.flatten.length + balDeficit target rem i vs = balTotal target rem i vs.length := by
  induction vs generalizing i with
  | nil => rfl
  | cons v vs ih =>
    simp only [balNoExcess, balDeficit, List.flatten_cons, List.length_append, List.length_cons, balTotal] at *
    have := ih hn.2
    omega

theorem balExact_append {i : Nat} {as bs : List (List α)} :
    balExact target rem i (as ++ bs) ↔ balExact target rem i as ∧ balExact target rem (i + as.length) bs := by
  induction as generalizing i with
  | nil => simp [balExact]
  | cons a as ih =>
    simp only [List.cons_append, balExact, ih, List.length_cons, and_assoc]
    rw [show i + 1 + as.length = i + (as.length + 1) by omega]

theorem balNoExcess_append {i : Nat} {as bs : List (List α)} :
    balNoExcess target rem i (as ++ bs) ↔ balNoExcess target rem i as ∧ balNoExcess target rem (i + as.length) bs := by
  induction as generalizing i with
  | nil => simp [balNoExcess]
  | cons a as ih =>
    simp only [List.cons_append, balNoExcess, ih, List.length_cons, and_assoc]
    rw [show i + 1 + as.length = i + (as.length + 1) by omega]

theorem balDeficit_append {i : Nat} {as bs : List (List α)} :
    balDeficit target rem i (as ++ bs) = balDeficit target rem i as + balDeficit target rem (i + as.length) bs := by
  induction as generalizing i with
  | nil => simp [balDeficit]
  | cons a as ih =>
    simp only [List.cons_append, balDeficit, ih, List.length_cons]
    rw [show i + 1 + as.length = i + (as.length + 1) by omega]
    omega

theorem balExact_deficit {i : Nat} {vs : List (List α)} (h : balExact target rem i vs) :
    balDeficit target rem i vs = 0 := by
  induction vs generalizing i with
  | nil => rfl
  | cons v vs ih =>
    simp only [balExact, balDeficit] at *
    have := ih h.2
    omega

/-- The first pass removes all excess. -/
theorem balScan_pass0_noExcess (i : Nat) (vs : List (List α)) (tmp : List α) (ftf : Nat) :
    balNoExcess target rem i (balScan target rem 0 i vs tmp ftf).1 := by
  induction vs generalizing i tmp ftf with
  | nil => trivial
  | cons v vs ih =>
    simp only [balScan, Nat.lt_irrefl, gt_iff_lt, false_and, if_false, balNoExcess]
    refine ⟨?_, ih ..⟩
    unfold balFit
    split
    · simp only [List.length_take]; omega
    · split
      · simp only [List.length_append, List.length_drop]; omega
      · simp only; omega

/-- Vectors before `firstTooFew` have their target size. Stated for a scan that has reached index `i`. -/
theorem balScan_pass0_ftf (i : Nat) (vs : List (List α)) (tmp : List α) (ftf : Nat) (hf : ftf ≤ i) :
    ftf ≤ (balScan target rem 0 i vs tmp ftf).2.2 ∧
    (balScan target rem 0 i vs tmp ftf).2.2 ≤ i + vs.length ∧
    (ftf = i → balExact target rem i
      ((balScan target rem 0 i vs tmp ftf).1.take ((balScan target rem 0 i vs tmp ftf).2.2 - i))) ∧
    (ftf < i → (balScan target rem 0 i vs tmp ftf).2.2 = ftf) := by
  induction vs generalizing i tmp ftf with
  | nil =>
    simp only [balScan, List.length_nil, List.take_nil, balExact]
    exact ⟨Nat.le_refl _, by omega, fun _ => trivial, fun _ => trivial⟩
  | cons v vs ih =>
    simp only [balScan, Nat.lt_irrefl, gt_iff_lt, false_and, if_false, List.length_cons]
    set s := balFit (balTarget target rem i) i v tmp ftf with hs
    have hcase : (s.2.2 = ftf ∧ (ftf = i → s.1.length ≤ balTarget target rem i)) ∨
        (ftf = i ∧ s.2.2 = i + 1 ∧ s.1.length = balTarget target rem i) := by
      rw [hs]
      unfold balFit
      split
      · by_cases h : ftf = i
        · right; simp only [h, if_true, List.length_take]; exact ⟨trivial, trivial, by omega⟩
        · left; simp [h]
      · split
        · left; simp only [List.length_append, List.length_drop, true_and]; omega
        · by_cases h : ftf = i
          · right; simp only [h, if_true]; exact ⟨trivial, trivial, by omega⟩
          · left; simp [h]
    rcases hcase with ⟨e, -⟩ | ⟨e1, e2, e3⟩
    · have := ih (i + 1) s.2.1 s.2.2 (by omega)
      have h4 := this.2.2.2 (by omega)
      rw [h4]
      refine ⟨by omega, by omega, ?_, fun _ => e⟩
      intro hfi
      rw [e, hfi, Nat.sub_self]
      exact True.intro
    · have := ih (i + 1) s.2.1 s.2.2 (by omega)
      have h3 := this.2.2.1 e2
      refine ⟨by omega, by omega, ?_, by omega⟩
      intro _
      obtain ⟨n, hn⟩ : ∃ n, (balScan target rem 0 (i + 1) vs s.2.1 s.2.2).2.2 - i = n + 1 :=
        ⟨(balScan target rem 0 (i + 1) vs s.2.1 s.2.2).2.2 - i - 1, by omega⟩
      rw [hn, List.take_succ_cons]
      refine ⟨e3, ?_⟩
      rwa [show n = (balScan target rem 0 (i + 1) vs s.2.1 s.2.2).2.2 - (i + 1) by omega]

/-- A later pass fills all gaps if the storage holds exactly what is missing. -/
theorem balScan_fill (pass : Nat) (hp : 0 < pass) (i : Nat) (vs : List (List α)) (tmp : List α) (ftf : Nat)
    (hn : balNoExcess target rem i vs) (hd : balDeficit target rem i vs = tmp.length) :
    balExact target rem i (balScan target rem pass i vs tmp ftf).1 ∧
      (balScan target rem pass i vs tmp ftf).2.1.length = 0 := by
  induction vs generalizing i tmp ftf with
  | nil =>
    simp only [balDeficit] at hd
    exact ⟨trivial, by simp only [balScan]; omega⟩
  | cons v vs ih =>
    simp only [balNoExcess, balDeficit] at hn hd
    have hs : (balFit (balTarget target rem i) i v tmp ftf).1.length = balTarget target rem i ∧
        (balFit (balTarget target rem i) i v tmp ftf).2.1.length = balDeficit target rem (i + 1) vs := by
      unfold balFit
      rw [if_neg (by omega)]
      split
      · simp only [List.length_append, List.length_drop, List.length_take]; omega
      · simp only; omega
    simp only [balScan]
    generalize balFit (balTarget target rem i) i v tmp ftf = s at hs
    split
    · rename_i h
      exact ⟨⟨hs.1, balExact_of_deficit hn.2 (by omega)⟩, h.2⟩
    · have := ih (i + 1) s.2.1 s.2.2 hn.2 hs.2.symm
      exact ⟨⟨hs.1, this.1⟩, this.2⟩

theorem balExact_get {i : Nat} {vs : List (List α)} (h : balExact target rem i vs) (j : Nat) (hj : j < vs.length) :
    (vs[j]).length = balTarget target rem (i + j) := by
  induction vs generalizing i j with
  | nil => simp at hj
  | cons v vs ih =>
    cases j with
    | zero => simpa using h.1
    | succ j =>
      have := ih h.2 j (by simpa using hj)
      rw [List.getElem_cons_succ, this]
      congr 1
      omega

/-- Everything about the result, for any number of allowed passes that is at least 2. -/
theorem balanceVectorsFuel_spec (fuel : Nat) (hf : 2 ≤ fuel) (vs : List (List α)) :
    ∃ r, balanceVectorsFuel fuel vs = some r ∧ r.length = vs.length ∧ r.flatten.Perm vs.flatten ∧
      balExact (vs.flatten.length / vs.length) (vs.flatten.length % vs.length) 0 r := by
  unfold balanceVectorsFuel
  by_cases h0 : vs.length = 0
  · refine ⟨vs, by simp [h0], rfl, List.Perm.refl _, ?_⟩
    rw [List.length_eq_zero_iff.1 h0]; trivial
  rw [if_neg h0]
  simp only
  set target := vs.flatten.length / vs.length with ht
  set rem := vs.flatten.length % vs.length with hr
  have htot : balTotal target rem 0 vs.length = vs.flatten.length := by
    rw [balTotal_eq, ht, hr, Nat.min_eq_left (by have := Nat.mod_lt vs.flatten.length (Nat.pos_of_ne_zero h0); omega)]
    rw [Nat.sub_zero]
    exact Nat.div_add_mod _ _
  obtain ⟨fuel, rfl⟩ : ∃ m, fuel = m + 2 := ⟨fuel - 2, by omega⟩
  -- first pass
  set p := balPass target rem 0 vs [] 0 with hp
  have p1 : p.1 = (balScan target rem 0 0 vs [] 0).1 := by simp [hp, balPass]
  have p2 : p.2.2 = (balScan target rem 0 0 vs [] 0).2.2 := by simp [hp, balPass]
  have hperm : (p.1.flatten ++ p.2.1).Perm vs.flatten := by simpa using balPass_perm (target := target) (rem := rem) 0 vs [] 0
  have hlen : p.1.length = vs.length := balPass_length (target := target) (rem := rem) 0 vs [] 0
  have hne : balNoExcess target rem 0 p.1 := by rw [p1]; exact balScan_pass0_noExcess ..
  have hftf := balScan_pass0_ftf (target := target) (rem := rem) 0 vs [] 0 (Nat.le_refl 0)
  rw [← p1, ← p2, Nat.sub_zero] at hftf
  have hdef : balDeficit target rem 0 p.1 = p.2.1.length := by
    have h1 := balDeficit_add hne
    rw [hlen, htot] at h1
    have h2 := hperm.length_eq
    rw [List.length_append] at h2
    omega
  rw [balLoop, if_pos (Or.inl rfl)]
  simp only [← hp]
  rw [balLoop]
  by_cases he : p.2.1.length = 0
  · rw [if_neg (by omega)]
    refine ⟨p.1, rfl, hlen, ?_, balExact_of_deficit hne (by omega)⟩
    rw [List.length_eq_zero_iff.1 he, List.append_nil] at hperm
    exact hperm
  · rw [if_pos (Or.inr he)]
    simp only
    set q := balPass target rem (0 + 1) p.1 p.2.1 p.2.2 with hq
    have hex := hftf.2.2.1 rfl
    have hle : p.2.2 ≤ p.1.length := by omega
    have htl : (p.1.take p.2.2).length = p.2.2 := by rw [List.length_take]; omega
    have hsplit : p.1.take p.2.2 ++ p.1.drop p.2.2 = p.1 := List.take_append_drop ..
    rw [← hsplit, balNoExcess_append, htl, Nat.zero_add] at hne
    rw [← hsplit, balDeficit_append, htl, Nat.zero_add, balExact_deficit hex, Nat.zero_add] at hdef
    have hfill := balScan_fill (0 + 1) (by omega) p.2.2 (p.1.drop p.2.2) p.2.1 p.2.2 hne.2 hdef
    have q1 : q.1 = p.1.take p.2.2 ++ (balScan target rem (0 + 1) p.2.2 (p.1.drop p.2.2) p.2.1 p.2.2).1 := rfl
    have q2 : q.2.1 = (balScan target rem (0 + 1) p.2.2 (p.1.drop p.2.2) p.2.1 p.2.2).2.1 := rfl
    have hqe : q.2.1.length = 0 := by rw [q2]; exact hfill.2
    have hqperm : (q.1.flatten ++ q.2.1).Perm (p.1.flatten ++ p.2.1) := balPass_perm ..
    have hqlen : q.1.length = p.1.length := balPass_length ..
    refine ⟨q.1, ?_, hqlen.trans hlen, ?_, ?_⟩
    · cases fuel with
      | zero => rw [balLoop, if_neg (by omega)]
      | succ f => rw [balLoop, if_neg (by omega)]
    · rw [List.length_eq_zero_iff.1 hqe, List.append_nil] at hqperm
      exact hqperm.trans hperm
    · rw [q1, balExact_append, htl, Nat.zero_add]
      exact ⟨hex, hfill.1⟩

end Verif
