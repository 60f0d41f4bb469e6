import Verif.Model.CellFunctor
import Mathlib.Data.List.Basic
import Mathlib.Data.List.Perm.Basic
import Mathlib.Data.List.Count
import Mathlib.Data.List.Nodup
import Mathlib.Data.List.TakeWhile
import Mathlib.Tactic.Linarith
/-!
Counting the pairs and triplets that the loops of the cell functors produce. The loops may break early; `key` is the
projection by which the lists are sorted (constant for the loops without sorting).
-/
namespace Verif

variable {X P : Type}

theorem untilBreak_sublist (stop : X → Bool) (l : List X) : (untilBreak stop l).Sublist l :=
  List.takeWhile_sublist _

theorem mem_of_untilBreak {stop : X → Bool} {l : List X} {y : X} (h : y ∈ untilBreak stop l) : y ∈ l :=
  (untilBreak_sublist stop l).subset h

/-- An element at which the loop would not break is reached if breaking is monotone along the list. -/
theorem mem_untilBreak {key : X → Rat} {stop : X → Bool} {l : List X} (hs : l.Pairwise (fun a b => key a ≤ key b)) {y : X}
    (hy : y ∈ l) (hno : stop y = false) (hm : ∀ z ∈ l, key z ≤ key y → stop z = true → stop y = true) :
    y ∈ untilBreak stop l := by
  induction l with
  | nil => cases hy
  | cons x l ih =>
    rw [List.pairwise_cons] at hs
    have hx : stop x = false := by
      rcases List.mem_cons.1 hy with rfl | hy
      · exact hno
      · by_contra hc
        have := hm x (by simp) (hs.1 y hy) (by simpa using hc)
        rw [hno] at this
        cases this
    unfold untilBreak
    rw [List.takeWhile_cons_of_pos (by simp [hx])]
    rcases List.mem_cons.1 hy with rfl | hy
    · simp
    · exact List.mem_cons_of_mem _ (ih hs.2 hy (fun z hz => hm z (by simp [hz])))

variable [DecidableEq P]

/-- Number of elements with a given label in a list without repeated labels. -/
theorem countP_label {get : X → P} {l S : List X} (hsub : S.Sublist l) (hnd : (l.map get).Nodup) (b : P) :
    S.countP (fun y => get y = b) = if b ∈ S.map get then 1 else 0 := by
  have h1 : S.countP (fun y => get y = b) = (S.map get).count b := by
    rw [List.count, List.countP_map]
    apply List.countP_congr
    intro x _
    simp
  have h2 : (S.map get).Nodup := hnd.sublist (hsub.map get)
  rw [h1]
  split
  · exact List.count_eq_one_of_mem h2 ‹_›
  · exact List.count_eq_zero.2 ‹_›

theorem countP_label_le {get : X → P} {l S : List X} (hsub : S.Sublist l) (hnd : (l.map get).Nodup) (b : P) :
    S.countP (fun y => get y = b) ≤ 1 := by
  rw [countP_label hsub hnd]; split <;> omega

theorem mem_pairLoop {stop : X → X → Bool} {l : List X} {t : X × X} (h : t ∈ pairLoop stop l) : t.1 ∈ l ∧ t.2 ∈ l := by
  induction l with
  | nil => cases h
  | cons x l ih =>
    simp only [pairLoop, List.mem_append, List.mem_map] at h
    rcases h with ⟨y, hy, rfl⟩ | h
    · exact ⟨by simp, by simp [mem_of_untilBreak hy]⟩
    · have := ih h
      exact ⟨by simp [this.1], by simp [this.2]⟩

omit [DecidableEq P] in
theorem pairLoop_ne {get : X → P} {stop : X → X → Bool} {l : List X} (hnd : (l.map get).Nodup) {t : X × X}
    (h : t ∈ pairLoop stop l) : get t.1 ≠ get t.2 := by
  induction l with
  | nil => cases h
  | cons x l ih =>
    rw [List.map_cons, List.nodup_cons] at hnd
    simp only [pairLoop, List.mem_append, List.mem_map] at h
    rcases h with ⟨y, hy, rfl⟩ | h
    · intro e
      exact hnd.1 (List.mem_map.2 ⟨y, mem_of_untilBreak hy, e.symm⟩)
    · exact ih hnd.2 h

/-- `t` is the unordered pair `{a, b}`. -/
def isPair (get : X → P) (a b : P) (t : X × X) : Bool :=
  decide ((get t.1 = a ∧ get t.2 = b) ∨ (get t.1 = b ∧ get t.2 = a))

theorem pairLoop_zero {get : X → P} {stop : X → X → Bool} {l : List X} {a b : P} (ha : a ∉ l.map get) :
    (pairLoop stop l).countP (isPair get a b) = 0 := by
  rw [List.countP_eq_zero]
  intro t ht hc
  have := mem_pairLoop ht
  simp only [isPair, decide_eq_true_eq] at hc
  rcases hc with ⟨h1, -⟩ | ⟨-, h1⟩
  · exact ha (List.mem_map.2 ⟨_, this.1, h1⟩)
  · exact ha (List.mem_map.2 ⟨_, this.2, h1⟩)

theorem isPair_comm (get : X → P) (a b : P) : isPair get a b = isPair get b a := by
  funext t
  simp only [isPair]
  congr 1
  exact propext or_comm

theorem pairLoop_cons_count {get : X → P} {stop : X → X → Bool} {x : X} {l : List X} {a b : P} (hab : a ≠ b)
    (hnd : (get x :: l.map get).Nodup) :
    (pairLoop stop (x :: l)).countP (isPair get a b) =
      if get x = a then (untilBreak (stop x) l).countP (fun y => get y = b)
      else if get x = b then (untilBreak (stop x) l).countP (fun y => get y = a)
      else (pairLoop stop l).countP (isPair get a b) := by
  rw [List.nodup_cons] at hnd
  simp only [pairLoop, List.countP_append, List.countP_map]
  split
  · rename_i h
    rw [pairLoop_zero (by rw [← h]; exact hnd.1), Nat.add_zero]
    apply List.countP_congr
    intro y _
    simp [isPair, h, hab]
  · split
    · rename_i h h2
      rw [isPair_comm, pairLoop_zero (by rw [← h2]; exact hnd.1), Nat.add_zero]
      apply List.countP_congr
      intro y _
      simp [isPair, h2, Ne.symm hab]
    · rename_i h h2
      rw [Nat.add_eq_right, List.countP_eq_zero]
      intro y _
      simp [isPair, h, h2]

theorem pairLoop_le_one {get : X → P} {stop : X → X → Bool} {l : List X} {a b : P} (hab : a ≠ b)
    (hnd : (l.map get).Nodup) : (pairLoop stop l).countP (isPair get a b) ≤ 1 := by
  induction l with
  | nil => simp [pairLoop]
  | cons x l ih =>
    rw [List.map_cons] at hnd
    rw [pairLoop_cons_count hab hnd]
    rw [List.nodup_cons] at hnd
    split
    · exact countP_label_le (untilBreak_sublist _ _) hnd.2 _
    · split
      · exact countP_label_le (untilBreak_sublist _ _) hnd.2 _
      · exact ih hnd.2

/-- Every pair at which the loop does not break is produced exactly once. -/
theorem pairLoop_eq_one {get : X → P} {key : X → Rat} {stop : X → X → Bool} {l : List X} {u v : X}
    (hs : l.Pairwise (fun a b => key a ≤ key b)) (hnd : (l.map get).Nodup) (huv : get u ≠ get v) (hu : u ∈ l) (hv : v ∈ l)
    (hm : ∀ x z y, key x ≤ key z → key z ≤ key y → stop x z = true → stop x y = true)
    (h1 : stop u v = false) (h2 : stop v u = false) : (pairLoop stop l).countP (isPair get (get u) (get v)) = 1 := by
  induction l with
  | nil => cases hu
  | cons x l ih =>
    have hnd' := hnd
    rw [List.map_cons] at hnd
    rw [pairLoop_cons_count huv hnd]
    rw [List.nodup_cons] at hnd
    rw [List.pairwise_cons] at hs
    have inj : ∀ y ∈ x :: l, get y = get x → y = x := by
      intro y hy e
      rcases List.mem_cons.1 hy with h | h
      · exact h
      · exact absurd (List.mem_map.2 ⟨y, h, e⟩) hnd.1
    have reach : ∀ w ∈ l, stop x w = false → w ∈ untilBreak (stop x) l := fun w hw hno =>
      mem_untilBreak hs.2 hw hno (fun z hz hzy hst => hm x z w (hs.1 z hz) hzy hst)
    split
    · rename_i h
      have := inj u hu h.symm
      subst this
      have hvl : v ∈ l := by
        rcases List.mem_cons.1 hv with rfl | h
        · exact absurd rfl huv
        · exact h
      rw [countP_label (untilBreak_sublist _ _) hnd.2, if_pos (List.mem_map.2 ⟨v, reach v hvl h1, rfl⟩)]
    · split
      · rename_i h h'
        have := inj v hv h'.symm
        subst this
        have hul : u ∈ l := by
          rcases List.mem_cons.1 hu with rfl | h
          · exact absurd rfl huv
          · exact h
        rw [countP_label (untilBreak_sublist _ _) hnd.2, if_pos (List.mem_map.2 ⟨u, reach u hul h2, rfl⟩)]
      · rename_i h h'
        refine ih hs.2 hnd.2 ?_ ?_
        · rcases List.mem_cons.1 hu with rfl | h3
          · exact absurd rfl h
          · exact h3
        · rcases List.mem_cons.1 hv with rfl | h3
          · exact absurd rfl h'
          · exact h3

theorem mem_crossLoop {stop : X → X → Bool} {l₁ l₂ : List X} {t : X × X} (h : t ∈ crossLoop stop l₁ l₂) :
    t.1 ∈ l₁ ∧ t.2 ∈ l₂ := by
  unfold crossLoop at h
  simp only [List.mem_flatMap, List.mem_map] at h
  obtain ⟨x, hx, y, hy, rfl⟩ := h
  exact ⟨hx, mem_of_untilBreak hy⟩

theorem crossLoop_count {get : X → P} {stop : X → X → Bool} {l₁ l₂ : List X} {a b : P} (hnd : (l₁.map get).Nodup) {u : X}
    (hu : u ∈ l₁) (ha : get u = a) :
    (crossLoop stop l₁ l₂).countP (fun t => get t.1 = a ∧ get t.2 = b) =
      (untilBreak (stop u) l₂).countP (fun y => get y = b) := by
  unfold crossLoop
  induction l₁ with
  | nil => cases hu
  | cons x l ih =>
    rw [List.map_cons, List.nodup_cons] at hnd
    rw [List.flatMap_cons, List.countP_append, List.countP_map]
    by_cases h : get x = a
    · have hux : u = x := by
        rcases List.mem_cons.1 hu with h1 | h1
        · exact h1
        · exact absurd (List.mem_map.2 ⟨u, h1, ha.trans h.symm⟩) hnd.1
      subst hux
      have h0 : List.countP (fun t => decide (get t.1 = a ∧ get t.2 = b))
          (l.flatMap fun x => (untilBreak (stop x) l₂).map fun y => (x, y)) = 0 := by
        rw [List.countP_eq_zero]
        intro t ht hc
        simp only [decide_eq_true_eq] at hc
        have := (mem_crossLoop (l₁ := l) (l₂ := l₂) (stop := stop) ht).1
        exact hnd.1 (List.mem_map.2 ⟨_, this, hc.1.trans h.symm⟩)
      rw [h0, Nat.add_zero]
      apply List.countP_congr
      intro y _
      simp [h]
    · have hul : u ∈ l := by
        rcases List.mem_cons.1 hu with h1 | h1
        · subst h1; exact absurd ha h
        · exact h1
      rw [ih hnd.2 hul, Nat.add_eq_right, List.countP_eq_zero]
      intro y _
      simp [h]

theorem crossLoop_le_one {get : X → P} {stop : X → X → Bool} {l₁ l₂ : List X} {a b : P} (hnd₁ : (l₁.map get).Nodup)
    (hnd₂ : (l₂.map get).Nodup) : (crossLoop stop l₁ l₂).countP (fun t => get t.1 = a ∧ get t.2 = b) ≤ 1 := by
  by_cases h : ∃ u ∈ l₁, get u = a
  · obtain ⟨u, hu, ha⟩ := h
    rw [crossLoop_count hnd₁ hu ha]
    exact countP_label_le (untilBreak_sublist _ _) hnd₂ _
  · have : (crossLoop stop l₁ l₂).countP (fun t => get t.1 = a ∧ get t.2 = b) = 0 := by
      rw [List.countP_eq_zero]
      intro t ht hc
      simp only [decide_eq_true_eq] at hc
      exact h ⟨t.1, (mem_crossLoop ht).1, hc.1⟩
    omega

/-- Every cross pair at which the loop does not break is produced exactly once. -/
theorem crossLoop_eq_one {get : X → P} {key : X → Rat} {stop : X → X → Bool} {l₁ l₂ : List X} {u v : X}
    (hs : l₂.Pairwise (fun a b => key a ≤ key b)) (hnd₁ : (l₁.map get).Nodup) (hnd₂ : (l₂.map get).Nodup)
    (hu : u ∈ l₁) (hv : v ∈ l₂) (hm : ∀ z ∈ l₂, key z ≤ key v → stop u z = true → stop u v = true)
    (h1 : stop u v = false) : (crossLoop stop l₁ l₂).countP (fun t => get t.1 = get u ∧ get t.2 = get v) = 1 := by
  rw [crossLoop_count hnd₁ hu rfl, countP_label (untilBreak_sublist _ _) hnd₂,
    if_pos (List.mem_map.2 ⟨v, mem_untilBreak hs hv h1 hm, rfl⟩)]

/-- Counting in a `flatMap` whose pieces contribute at most one element, exactly for the elements satisfying `q`. -/
theorem countP_flatMap_indicator {α β : Type} {f : α → List β} {p : β → Bool} {q : α → Bool} {l : List α}
    (h : ∀ x ∈ l, (f x).countP p = if q x then 1 else 0) : (l.flatMap f).countP p = l.countP q := by
  induction l with
  | nil => rfl
  | cons x l ih =>
    rw [List.flatMap_cons, List.countP_append, List.countP_cons, h x (by simp), ih (fun y hy => h y (by simp [hy]))]
    omega

end Verif
