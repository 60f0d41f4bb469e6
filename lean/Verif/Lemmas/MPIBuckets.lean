import Verif.Spec.MPIPhase
import Mathlib.Algebra.Order.Field.Rat
import Mathlib.Data.List.Sort
/-! Buckets of similar ranks. -/
namespace Verif
open Spec.MPIPhase

theorem bucketLoop_not_mem {q m : Rat} : ∀ {l : List Rat} {prev : Option Rat} {cur mine : Nat}, m ∉ l → bucketLoop q m prev cur mine l = mine := by
  intro l
  induction l with
  | nil => intro _ _ _ _; rfl
  | cons x xs ih =>
    intro prev cur mine h
    unfold bucketLoop
    have h1 : x ≠ m := fun e => h (by simp [e])
    simp only [if_neg h1]
    exact ih fun hm => h (by simp [hm])

/-- One step with a previous value. -/
theorem bucketLoop_cons {q m x y : Rat} {cur mine : Nat} {xs : List Rat} : bucketLoop q m (some y) cur mine (x :: xs) =
    bucketLoop q m (some x) (if x ≠ 0 ∧ (x - y) / x > q then cur + 1 else cur)
      (if x = m then (if x ≠ 0 ∧ (x - y) / x > q then cur + 1 else cur) else mine) xs := rfl

theorem bucketLoop_ge {q m : Rat} : ∀ {l : List Rat} {prev : Option Rat} {cur mine : Nat}, m ∈ l → cur ≤ bucketLoop q m prev cur mine l := by
  intro l
  induction l with
  | nil => intro _ _ _ h; cases h
  | cons x xs ih =>
    intro prev cur mine h
    unfold bucketLoop
    by_cases hm : m ∈ xs
    · refine le_trans ?_ (ih hm)
      split_ifs <;> omega
    · rw [bucketLoop_not_mem hm]
      have : x = m := by
        rcases List.mem_cons.1 h with h | h
        · exact h.symm
        · exact absurd h hm
      simp only [if_pos this]
      split_ifs <;> omega

theorem bucketLoop_stay {q m : Rat} (hq : 0 ≤ q) : ∀ {l : List Rat} {y : Rat} {cur mine : Nat}, 0 ≤ y → (y :: l).Pairwise (· ≤ ·) → m ∈ l →
    (bucketLoop q m (some y) cur mine l = cur ↔ ∀ a b, Neighbours (y :: l) a b → b ≤ m → (b - a) / b ≤ q) := by
  intro l
  induction l with
  | nil => intro _ _ _ _ _ h; cases h
  | cons z zs ih =>
    intro y cur mine hy hs hm
    rw [bucketLoop_cons]
    rw [List.pairwise_cons] at hs
    obtain ⟨s1, s2⟩ := hs
    have hyz := s1 z (by simp)
    have hzm : z ≤ m := by
      rcases List.mem_cons.1 hm with rfl | hm
      · exact le_refl _
      · exact (List.pairwise_cons.1 s2).1 m hm
    have hz : ∀ w ∈ zs, z ≤ w := (List.pairwise_cons.1 s2).1
    by_cases hj : z ≠ 0 ∧ (z - y) / z > q
    · rw [if_pos hj]
      have hlt : y < z := by
        rcases lt_or_eq_of_le hyz with h | h
        · exact h
        · rw [h, sub_self, zero_div] at hj
          exact absurd hj.2 (not_lt.2 hq)
      have hn : Neighbours (y :: z :: zs) y z := by
        refine ⟨by simp, by simp, hlt, ?_⟩
        rintro w hw ⟨h1, h2⟩
        rcases List.mem_cons.1 hw with rfl | hw
        · exact lt_irrefl _ h1
        rcases List.mem_cons.1 hw with rfl | hw
        · exact lt_irrefl _ h2
        · exact absurd (hz w hw) (not_le.2 h2)
      constructor
      · intro h
        exfalso
        by_cases hm2 : m ∈ zs
        · have := bucketLoop_ge (q := q) (m := m) (prev := some z) (cur := cur + 1) (mine := if z = m then cur + 1 else mine) hm2
          omega
        · rw [bucketLoop_not_mem hm2] at h
          have : z = m := by
            rcases List.mem_cons.1 hm with h | h
            · exact h.symm
            · exact absurd h hm2
          rw [if_pos this] at h
          omega
      · intro h
        exact absurd (h y z hn hzm) (not_le.2 hj.2)
    · rw [if_neg hj]
      have hok : y < z → (z - y) / z ≤ q := by
        intro hlt
        by_contra hc
        exact hj ⟨(lt_of_le_of_lt hy hlt).ne', not_le.1 hc⟩
      -- the neighbours
      have hnb : ∀ a b, Neighbours (y :: z :: zs) a b → Neighbours (z :: zs) a b ∨ (a = y ∧ b = z ∧ y < z) := by
        rintro a b ⟨h1, h2, h3, h4⟩
        have hb : b ∈ z :: zs := by
          rcases List.mem_cons.1 h2 with rfl | h2
          · exfalso
            rcases List.mem_cons.1 h1 with rfl | h1
            · exact lt_irrefl _ h3
            · exact absurd (s1 a h1) (not_le.2 h3)
          · exact h2
        rcases List.mem_cons.1 h1 with rfl | h1
        · rcases lt_or_eq_of_le hyz with h | h
          · right
            refine ⟨rfl, ?_, h⟩
            rcases List.mem_cons.1 hb with h5 | h5
            · exact h5
            · rcases lt_or_eq_of_le (hz b h5) with h6 | h6
              · exact absurd ⟨h, h6⟩ (h4 z (by simp))
              · exact h6.symm
          · left
            exact ⟨by simp [h], hb, h3, fun w hw => h4 w (by simp [List.mem_cons.1 hw])⟩
        · exact .inl ⟨h1, hb, h3, fun w hw => h4 w (by simp [List.mem_cons.1 hw])⟩
      have hnb2 : ∀ a b, Neighbours (z :: zs) a b → Neighbours (y :: z :: zs) a b := by
        rintro a b ⟨h1, h2, h3, h4⟩
        refine ⟨List.mem_cons_of_mem _ h1, List.mem_cons_of_mem _ h2, h3, ?_⟩
        intro w hw hw2
        rcases List.mem_cons.1 hw with rfl | hw
        · exact absurd (s1 a h1) (not_le.2 hw2.1)
        · exact h4 w hw hw2
      by_cases hm2 : m ∈ zs
      · rw [ih (hy.trans hyz) s2 hm2]
        constructor
        · intro h a b hab hb
          rcases hnb a b hab with h1 | ⟨rfl, rfl, h1⟩
          · exact h a b h1 hb
          · exact hok h1
        · intro h a b hab hb
          exact h a b (hnb2 a b hab) hb
      · rw [bucketLoop_not_mem hm2]
        have hzm : z = m := by
          rcases List.mem_cons.1 hm with h | h
          · exact h.symm
          · exact absurd h hm2
        rw [if_pos hzm]
        refine ⟨fun _ a b hab hb => ?_, fun _ => rfl⟩
        rcases hnb a b hab with ⟨h1, h2, h3, -⟩ | ⟨rfl, rfl, h1⟩
        · exfalso
          rw [← hzm] at hb
          have : z ≤ a := by
            rcases List.mem_cons.1 h1 with rfl | h1
            · exact le_refl _
            · exact hz a h1
          exact absurd (this.trans_lt h3) (not_lt.2 hb)
        · exact hok h1

theorem bucketLoop_same {q m1 m2 : Rat} (hq : 0 ≤ q) (hm : m1 ≤ m2) : ∀ {l : List Rat} {prev : Option Rat} {cur k1 k2 : Nat}, (∀ x ∈ l, 0 ≤ x) →
    l.Pairwise (· ≤ ·) → m1 ∈ l → m2 ∈ l →
    (bucketLoop q m1 prev cur k1 l = bucketLoop q m2 prev cur k2 l ↔ ∀ a b, Neighbours l a b → m1 ≤ a → b ≤ m2 → (b - a) / b ≤ q) := by
  intro l
  induction l with
  | nil => intro _ _ _ _ _ _ h; cases h
  | cons x xs ih =>
    intro prev cur k1 k2 h0 hs i1 i2
    have s1 := (List.pairwise_cons.1 hs).1
    have s2 := (List.pairwise_cons.1 hs).2
    unfold bucketLoop
    extract_lets d cur1
    by_cases hm1 : m1 ∈ xs
    · have hm2 : m2 ∈ xs := by
        rcases List.mem_cons.1 i2 with h | h
        · have : m1 = m2 := le_antisymm hm (h ▸ s1 m1 hm1)
          exact this ▸ hm1
        · exact h
      rw [ih (fun x hx => h0 x (by simp [hx])) s2 hm1 hm2]
      constructor
      · rintro h a b ⟨n1, n2, n3, n4⟩ ha hb
        have hxm : x ≤ m1 := s1 m1 hm1
        have ha' : a ∈ xs := by
          rcases List.mem_cons.1 n1 with h5 | h5
          · have : a = m1 := le_antisymm (h5 ▸ hxm) ha
            exact this ▸ hm1
          · exact h5
        have hb' : b ∈ xs := by
          rcases List.mem_cons.1 n2 with h5 | h5
          · exact absurd (h5 ▸ s1 a ha') (not_le.2 n3)
          · exact h5
        exact h a b ⟨ha', hb', n3, fun w hw => n4 w (by simp [hw])⟩ ha hb
      · rintro h a b ⟨n1, n2, n3, n4⟩ ha hb
        refine h a b ⟨List.mem_cons_of_mem _ n1, List.mem_cons_of_mem _ n2, n3, ?_⟩ ha hb
        intro w hw hw2
        rcases List.mem_cons.1 hw with rfl | hw
        · exact absurd (s1 a n1) (not_le.2 hw2.1)
        · exact n4 w hw hw2
    · have hx : x = m1 := by
        rcases List.mem_cons.1 i1 with h | h
        · exact h.symm
        · exact absurd h hm1
      rw [bucketLoop_not_mem hm1, if_pos hx]
      by_cases hm2 : m2 ∈ xs
      · rw [eq_comm, bucketLoop_stay hq (h0 x (by simp)) hs hm2]
        constructor
        · exact fun h a b hab _ hb => h a b hab hb
        · intro h a b hab hb
          refine h a b hab ?_ hb
          rw [← hx]
          rcases List.mem_cons.1 hab.1 with h5 | h5
          · exact h5.ge
          · exact s1 a h5
      · have hx2 : x = m2 := by
          rcases List.mem_cons.1 i2 with h | h
          · exact h.symm
          · exact absurd h hm2
        rw [bucketLoop_not_mem hm2, if_pos hx2]
        refine ⟨fun _ a b hab ha hb => ?_, fun _ => rfl⟩
        exfalso
        have := hab.2.2.1
        rw [← hx] at ha
        rw [← hx2] at hb
        exact absurd (ha.trans_lt this) (not_lt.2 hb)

end Verif
