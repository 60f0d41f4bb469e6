import Verif.Model.Sliced
import Verif.Lemmas.CellBlock3D
import Mathlib.Data.List.Basic
import Mathlib.Tactic.Linarith
/-!
Invariant of the lock protocol of the sliced traversals.
-/
namespace Verif

/-- Locks held after a thread that held `h` has executed a list of actions. -/
def heldAfter : (Nat → Prop) → List SliceAct → Nat → Prop
  | h, [] => h
  | h, .lock l :: r => heldAfter (fun m => m = l ∨ h m) r
  | h, .process _ :: r => heldAfter h r
  | h, .unlock l :: r => heldAfter (fun m => h m ∧ m ≠ l) r

theorem heldAfter_append (a b : List SliceAct) : ∀ h, heldAfter h (a ++ b) = heldAfter (heldAfter h a) b := by
  induction a with
  | nil => intro h; rfl
  | cons x a ih => intro h; cases x <;> simp only [List.cons_append, heldAfter, ih]

theorem heldAfter_congr {h h' : Nat → Prop} (e : ∀ l, h l ↔ h' l) (a : List SliceAct) (l : Nat) :
    heldAfter h a l ↔ heldAfter h' a l := by
  have : h = h' := funext fun l => propext (e l)
  rw [this]

theorem heldAfter_locks (f : Nat → Nat) (L : List Nat) : ∀ (h : Nat → Prop) (l : Nat),
    heldAfter h (L.map fun i => .lock (f i)) l ↔ (∃ i ∈ L, l = f i) ∨ h l := by
  induction L with
  | nil => intro h l; simp [heldAfter]
  | cons x L ih =>
    intro h l
    simp only [List.map_cons, heldAfter, ih, List.mem_cons, exists_eq_or_imp]
    exact or_left_comm.trans (or_assoc.symm)

theorem heldAfter_unlocks (f : Nat → Nat) (L : List Nat) : ∀ (h : Nat → Prop) (l : Nat),
    heldAfter h (L.map fun i => .unlock (f i)) l ↔ h l ∧ ∀ i ∈ L, l ≠ f i := by
  induction L with
  | nil => intro h l; simp [heldAfter]
  | cons x L ih =>
    intro h l
    simp only [List.map_cons, heldAfter, ih, List.mem_cons, forall_eq_or_imp]
    tauto

/-- Splitting a concatenation at an element. -/
theorem append_split {α : Type _} {pre post A B : List α} {x : α} (h : pre ++ x :: post = A ++ B) :
    (∃ q, A = pre ++ x :: q ∧ post = q ++ B) ∨ (∃ q, pre = A ++ q ∧ B = q ++ x :: post) := by
  rcases List.append_eq_append_iff.1 h with ⟨q, h1, h2⟩ | ⟨q, h1, h2⟩
  · cases q with
    | nil =>
      right
      refine ⟨[], by simp at h1; simp [h1], by simpa using h2.symm⟩
    | cons y q =>
      left
      rw [List.cons_append, List.cons.injEq] at h2
      obtain ⟨rfl, h2⟩ := h2
      exact ⟨q, h1, h2⟩
  · exact Or.inr ⟨q, h1, h2⟩

/-- Splitting a mapped range at an element. -/
theorem map_range_split {α : Type _} (f : Nat → α) (n : Nat) {pre post : List α} {x : α}
    (h : pre ++ x :: post = (List.range n).map f) : ∃ k < n, x = f k ∧ pre = (List.range k).map f := by
  induction n generalizing post with
  | zero => simp at h
  | succ n ih =>
    rw [List.range_succ, List.map_append] at h
    rcases append_split h with ⟨q, h1, -⟩ | ⟨q, h1, h2⟩
    · obtain ⟨k, hk, e⟩ := ih h1.symm
      exact ⟨k, by omega, e⟩
    · cases q with
      | nil =>
        simp only [List.map_cons, List.map_nil, List.nil_append, List.cons.injEq] at h2
        exact ⟨n, by omega, h2.1.symm, by simpa using h1⟩
      | cons y q => simp at h2

/-- Splitting a flattened range at an element. -/
theorem flatMap_range_split {α : Type _} (f : Nat → List α) (n : Nat) {pre post : List α} {x : α}
    (h : pre ++ x :: post = (List.range n).flatMap f) :
    ∃ o < n, ∃ p q, pre = (List.range o).flatMap f ++ p ∧ f o = p ++ x :: q := by
  induction n generalizing post with
  | zero => simp at h
  | succ n ih =>
    rw [List.range_succ, List.flatMap_append] at h
    rcases append_split h with ⟨q, h1, -⟩ | ⟨q, h1, h2⟩
    · obtain ⟨k, hk, e⟩ := ih h1.symm
      exact ⟨k, by omega, e⟩
    · refine ⟨n, by omega, q, post, h1, ?_⟩
      simpa using h2

/-- Locks a slice holds when it is about to begin the iteration for layer `o`. -/
def layerHeld (ov num t s o : Nat) (l : Nat) : Prop :=
  (s > 0 ∧ o < t ∧ ∃ i, o ≤ i ∧ i < ov ∧ l = (s - 1) * ov + i) ∨
    (s ≠ num - 1 ∧ o < t ∧ ∃ k, k + t < ov + o ∧ l = s * ov + k)

/-- Slice thicknesses the protocol relies on: the last slice is not empty, all others are thicker than the overlap. -/
def GoodThick (ov : Nat) (thick : List Nat) : Prop :=
  (∀ s, s + 1 < thick.length → ov + 1 ≤ thick.getD s 0) ∧ (thick ≠ [] → 1 ≤ thick.getD (thick.length - 1) 0)

theorem mul_pred (s ov : Nat) (h : s > 0) : s * ov = (s - 1) * ov + ov := by
  obtain ⟨n, rfl⟩ := Nat.exists_eq_succ_of_ne_zero (by omega : s ≠ 0)
  simp [Nat.succ_mul]

theorem layerHeld_end {ov num t s o : Nat} (ho : o < t) (l : Nat) :
    heldAfter (layerHeld ov num t s o) (endLock ov num t s o) l ↔
      (s > 0 ∧ ∃ i, o ≤ i ∧ i < ov ∧ l = (s - 1) * ov + i) ∨
        (s ≠ num - 1 ∧ ∃ k, k + t ≤ ov + o ∧ l = s * ov + k) := by
  unfold endLock
  by_cases hc : s ≠ num - 1 ∧ o + ov ≥ t
  · rw [if_pos hc]
    simp only [heldAfter, layerHeld]
    have e : (s + 1) * ov - (t - o) = s * ov + (ov - (t - o)) := by
      rw [Nat.succ_mul]; omega
    rw [e]
    constructor
    · rintro (rfl | ⟨h1, -, h2⟩ | ⟨h1, -, k, h2, h3⟩)
      · exact Or.inr ⟨hc.1, ov - (t - o), by omega, rfl⟩
      · exact Or.inl ⟨h1, h2⟩
      · exact Or.inr ⟨h1, k, by omega, h3⟩
    · rintro (⟨h1, h2⟩ | ⟨h1, k, h2, h3⟩)
      · exact Or.inr (Or.inl ⟨h1, ho, h2⟩)
      · rcases Nat.lt_or_ge (k + t) (ov + o) with h4 | h4
        · exact Or.inr (Or.inr ⟨h1, ho, k, h4, h3⟩)
        · left
          rw [h3]
          omega
  · rw [if_neg hc]
    simp only [heldAfter, layerHeld]
    constructor
    · rintro (⟨h1, -, h2⟩ | ⟨h1, -, k, h2, h3⟩)
      · exact Or.inl ⟨h1, h2⟩
      · exact Or.inr ⟨h1, k, by omega, h3⟩
    · rintro (⟨h1, h2⟩ | ⟨h1, k, h2, h3⟩)
      · exact Or.inl ⟨h1, ho, h2⟩
      · exact absurd ⟨h1, by omega⟩ hc

theorem forUp_one_eq (a b : Nat) : forUp a b 1 = (List.range (b - a)).map (a + ·) := by
  induction h : b - a generalizing a with
  | zero => unfold forUp; rw [dif_neg (by omega)]; simp
  | succ n ih =>
    unfold forUp
    rw [dif_pos (by omega), ih (a + 1) (by omega), List.range_succ_eq_map]
    simp only [List.map_cons, List.map_map, Nat.add_zero, List.cons.injEq, true_and]
    apply List.map_congr_left
    intro x _
    simp only [Function.comp]
    omega

theorem layerHeld_step {ov num t s o p : Nat} (ho : o < t) (ht : s ≠ num - 1 → ov + 1 ≤ t) (l : Nat) :
    heldAfter (layerHeld ov num t s o) (endLock ov num t s o ++ .process p :: releases ov num t s o) l ↔
      layerHeld ov num t s (o + 1) l := by
  rw [heldAfter_append]
  simp only [heldAfter]
  rw [heldAfter_congr (layerHeld_end ho)]
  unfold releases layerHeld
  by_cases h1 : s > 0 ∧ o < ov
  · have hm := mul_pred s ov h1.1
    rw [if_pos h1]
    simp only [heldAfter]
    by_cases h2 : o + 1 = t
    · rw [if_pos h2, heldAfter_unlocks]
      simp only [mem_forUp_one]
      constructor
      · rintro ⟨⟨⟨-, i, h3, h4, rfl⟩ | ⟨h3, k, h4, rfl⟩, h5⟩, h6⟩
        · rcases Nat.lt_or_ge i (o + 1) with h7 | h7
          · exact absurd (by congr 1; omega) h5
          · exact absurd rfl (h6 i ⟨h7, h4⟩)
        · have := ht h3; omega
      · rintro (⟨-, h, -⟩ | ⟨-, h, -⟩) <;> omega
    · rw [if_neg h2]
      simp only [heldAfter]
      constructor
      · rintro ⟨⟨-, i, h3, h4, rfl⟩ | ⟨h3, k, h4, rfl⟩, h5⟩
        · left
          refine ⟨h1.1, by omega, i, ?_, h4, rfl⟩
          rcases Nat.lt_or_ge i (o + 1) with h7 | h7
          · exact absurd (by congr 1; omega) h5
          · exact h7
        · right
          exact ⟨h3, by omega, k, by omega, rfl⟩
      · rintro (⟨h3, h4, i, h5, h6, rfl⟩ | ⟨h3, h4, k, h5, rfl⟩)
        · exact ⟨Or.inl ⟨h3, i, by omega, h6, rfl⟩, by omega⟩
        · exact ⟨Or.inr ⟨h3, k, by omega, rfl⟩, by omega⟩
  · rw [if_neg h1]
    by_cases h2 : s ≠ num - 1 ∧ o + 1 = t
    · rw [if_pos h2, heldAfter_unlocks]
      simp only [List.mem_range]
      constructor
      · rintro ⟨⟨h3, i, h4, h5, -⟩ | ⟨h3, k, h4, rfl⟩, h6⟩
        · exact absurd ⟨h3, by omega⟩ h1
        · exact absurd rfl (h6 k (by omega))
      · rintro (⟨-, h, -⟩ | ⟨-, h, -⟩) <;> omega
    · rw [if_neg h2]
      simp only [heldAfter]
      constructor
      · rintro (⟨h3, i, h4, h5, -⟩ | ⟨h3, k, h4, rfl⟩)
        · exact absurd ⟨h3, by omega⟩ h1
        · exact Or.inr ⟨h3, by omega, k, by omega, rfl⟩
      · rintro (⟨h3, h4, i, h5, h6, rfl⟩ | ⟨h3, h4, k, h5, rfl⟩)
        · exact absurd ⟨h3, by omega⟩ h1
        · exact Or.inr ⟨h3, k, by omega, rfl⟩

/-- Locks held after the starting locks and the first `o` layers. -/
theorem held_prefix {ov num st t s o : Nat} (ho : o ≤ t) (ht : s ≠ num - 1 → ov + 1 ≤ t) (h0 : 0 < t) (l : Nat) :
    heldAfter (fun _ => False) (startLocks ov s ++ (List.range o).flatMap (layerActs ov num st t s)) l ↔
      layerHeld ov num t s o l := by
  induction o generalizing l with
  | zero =>
    simp only [List.range_zero, List.flatMap_nil, List.append_nil]
    unfold startLocks layerHeld
    by_cases hs : s > 0
    · rw [if_pos hs, heldAfter_locks]
      simp only [List.mem_range, or_false]
      constructor
      · rintro ⟨i, h1, rfl⟩
        exact Or.inl ⟨hs, h0, i, by omega, h1, rfl⟩
      · rintro (⟨-, -, i, -, h1, rfl⟩ | ⟨h1, -, k, h2, -⟩)
        · exact ⟨i, h1, rfl⟩
        · have := ht h1; omega
    · rw [if_neg hs]
      simp only [heldAfter, false_iff]
      rintro (⟨h1, -⟩ | ⟨h1, -, k, h2, -⟩)
      · exact hs h1
      · have := ht h1; omega
  | succ o ih =>
    rw [List.range_succ, List.flatMap_append, ← List.append_assoc, heldAfter_append,
      heldAfter_congr (ih (by omega))]
    simp only [List.flatMap_cons, List.flatMap_nil, List.append_nil]
    exact layerHeld_step (by omega) ht l

/-- Where a slice can be: what it does next and which locks it holds at that point. -/
theorem slice_position {ov num st t s : Nat} (ht : s ≠ num - 1 → ov + 1 ≤ t) {pre post : List SliceAct} {x : SliceAct}
    (h : pre ++ x :: post = startLocks ov s ++ (List.range t).flatMap (layerActs ov num st t s)) :
    (s > 0 ∧ ∃ k < ov, x = .lock ((s - 1) * ov + k) ∧
      ∀ l, heldAfter (fun _ => False) pre l ↔ ∃ i < k, l = (s - 1) * ov + i) ∨
    (s ≠ num - 1 ∧ ∃ o < t, t ≤ o + ov ∧ x = .lock (s * ov + (ov - (t - o))) ∧
      ∀ l, heldAfter (fun _ => False) pre l ↔ layerHeld ov num t s o l) ∨
    (∃ o < t, x = .process (st + o) ∧ ∀ l, heldAfter (fun _ => False) pre l ↔
      (s > 0 ∧ ∃ i, o ≤ i ∧ i < ov ∧ l = (s - 1) * ov + i) ∨ (s ≠ num - 1 ∧ ∃ k, k + t ≤ ov + o ∧ l = s * ov + k)) ∨
    (∃ l, x = .unlock l ∧ heldAfter (fun _ => False) pre l) := by
  rcases append_split h with ⟨q, h1, -⟩ | ⟨q, h1, h2⟩
  · left
    unfold startLocks at h1
    by_cases hs : s > 0
    · rw [if_pos hs] at h1
      obtain ⟨k, hk, e1, e2⟩ := map_range_split _ _ h1.symm
      refine ⟨hs, k, hk, e1, fun l => ?_⟩
      rw [e2, heldAfter_locks]
      simp
    · rw [if_neg hs] at h1; simp at h1
  · right
    obtain ⟨o, ho, p, r, e1, e2⟩ := flatMap_range_split _ _ h2.symm
    have hpre : ∀ l, heldAfter (fun _ => False) pre l ↔ heldAfter (layerHeld ov num t s o) p l := by
      intro l
      rw [h1, e1, ← List.append_assoc, heldAfter_append]
      exact heldAfter_congr (held_prefix (by omega) ht (by omega)) p l
    unfold layerActs at e2
    rcases append_split e2.symm with ⟨q', h3, -⟩ | ⟨q', h3, h4⟩
    · left
      unfold endLock at h3
      by_cases hc : s ≠ num - 1 ∧ o + ov ≥ t
      · rw [if_pos hc] at h3
        have e : (s + 1) * ov - (t - o) = s * ov + (ov - (t - o)) := by
          rw [Nat.succ_mul]; omega
        rw [e] at h3
        cases p with
        | nil =>
          simp only [List.nil_append, List.cons.injEq] at h3
          exact ⟨hc.1, o, ho, by omega, h3.1.symm, hpre⟩
        | cons y p => simp at h3
      · rw [if_neg hc] at h3; simp at h3
    · right
      cases q' with
      | nil =>
        left
        simp only [List.nil_append, List.cons.injEq] at h4
        refine ⟨o, ho, h4.1.symm, fun l => ?_⟩
        rw [hpre, h3, List.append_nil]
        exact layerHeld_end ho l
      | cons y q' =>
        right
        simp only [List.cons_append, List.cons.injEq] at h4
        obtain ⟨rfl, h4⟩ := h4
        have hpre' : ∀ l, heldAfter (fun _ => False) pre l ↔ heldAfter (fun l => (s > 0 ∧ ∃ i, o ≤ i ∧ i < ov ∧ l = (s - 1) * ov + i) ∨
            (s ≠ num - 1 ∧ ∃ k, k + t ≤ ov + o ∧ l = s * ov + k)) q' l := by
          intro l
          rw [hpre, h3, heldAfter_append]
          simp only [heldAfter]
          exact heldAfter_congr (layerHeld_end ho) q' l
        unfold releases at h4
        by_cases h5 : s > 0 ∧ o < ov
        · rw [if_pos h5] at h4
          cases q' with
          | nil =>
            simp only [List.nil_append, List.cons.injEq] at h4
            exact ⟨_, h4.1.symm, (hpre' _).2 (Or.inl ⟨h5.1, o, by omega, h5.2, rfl⟩)⟩
          | cons y q' =>
            simp only [List.cons_append, List.cons.injEq] at h4
            obtain ⟨rfl, h4⟩ := h4
            by_cases h6 : o + 1 = t
            · rw [if_pos h6] at h4
              have e3 : forUp (o + 1) ov 1 = (List.range (ov - (o + 1))).map (o + 1 + ·) := by
                rw [forUp_one_eq]
              rw [e3, List.map_map] at h4
              obtain ⟨k, hk, e4, e5⟩ := map_range_split _ _ h4.symm
              refine ⟨_, e4, (hpre' _).2 ?_⟩
              subst e5
              rw [show (.unlock ((s - 1) * ov + o) : SliceAct) = .unlock ((s - 1) * ov + o) from rfl]
              simp only [heldAfter]
              rw [← List.map_map, show (List.range k).map (o + 1 + ·) = (List.range k).map (o + 1 + ·) from rfl]
              rw [heldAfter_unlocks (fun i => (s - 1) * ov + i)]
              refine ⟨⟨Or.inl ⟨h5.1, o + 1 + k, by omega, by omega, rfl⟩, by omega⟩, ?_⟩
              simp only [List.mem_map, List.mem_range]
              rintro i ⟨j, hj, rfl⟩
              omega
            · rw [if_neg h6] at h4; simp at h4
        · rw [if_neg h5] at h4
          by_cases h6 : s ≠ num - 1 ∧ o + 1 = t
          · rw [if_pos h6] at h4
            obtain ⟨k, hk, e4, e5⟩ := map_range_split _ _ h4.symm
            refine ⟨_, e4, (hpre' _).2 ?_⟩
            rw [e5, heldAfter_unlocks (fun i => s * ov + i)]
            refine ⟨Or.inr ⟨h6.1, k, by omega, rfl⟩, ?_⟩
            simp only [List.mem_range]
            intro i hi
            omega
          · rw [if_neg h6] at h4; simp at h4

/-- A slice that has finished holds no lock. -/
theorem held_done {ov num st t s : Nat} (ht : s ≠ num - 1 → ov + 1 ≤ t) (h0 : 0 < t) (l : Nat) :
    ¬ heldAfter (fun _ => False) (startLocks ov s ++ (List.range t).flatMap (layerActs ov num st t s)) l := by
  rw [held_prefix (le_refl t) ht h0]
  rintro (⟨-, h, -⟩ | ⟨-, h, -⟩) <;> omega

end Verif
