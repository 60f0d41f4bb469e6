import Verif.Spec.Count
import Mathlib.Data.List.Nodup
import Mathlib.Data.List.Flatten
/-! Generic lemmas about duplicate-free lists and counting. -/
namespace Verif
open Spec

/-- A `flatMap` has no duplicates if a key recovers the outer element. -/
theorem nodup_flatMap_key {α β : Type _} {l : List α} {f : α → List β} (k : β → α) (hl : l.Nodup)
    (hf : ∀ x ∈ l, (f x).Nodup) (hk : ∀ x ∈ l, ∀ y ∈ f x, k y = x) : (l.flatMap f).Nodup := by
  rw [List.nodup_flatMap]
  refine ⟨hf, ?_⟩
  rw [List.Nodup] at hl
  refine List.Pairwise.imp_of_mem ?_ hl
  intro a b ha hb hab
  simp only [Function.onFun]
  intro y hya hyb
  exact hab ((hk a ha y hya).symm.trans (hk b hb y hyb))

theorem exactlyOnce_of_nodup {α : Type _} [DecidableEq α] {l : List α} {P : α → Prop} (h : l.Nodup)
    (hm : ∀ a, a ∈ l ↔ P a) : ExactlyOnce l P :=
  ⟨fun a ha => List.count_eq_one_of_mem h ((hm a).2 ha), fun a ha => List.count_eq_zero.2 (fun hh => ha ((hm a).1 hh))⟩

theorem ExactlyOnce.mem_iff {α : Type _} [DecidableEq α] {l : List α} {P : α → Prop} (h : ExactlyOnce l P) (a : α) :
    a ∈ l ↔ P a := by
  constructor
  · intro ha
    by_contra hn
    have := h.2 a hn
    rw [List.count_eq_zero] at this
    exact this ha
  · intro hp
    have := h.1 a hp
    by_contra hn
    rw [List.count_eq_zero.2 hn] at this; omega

theorem ExactlyOnce.nodup {α : Type _} [DecidableEq α] {l : List α} {P : α → Prop} (h : ExactlyOnce l P) : l.Nodup := by
  rw [List.nodup_iff_count_le_one]
  intro a
  by_cases hp : P a
  · exact Nat.le_of_eq (h.1 a hp)
  · rw [h.2 a hp]; omega

theorem count_map_of_injOn {α β : Type _} [DecidableEq α] [DecidableEq β] {f : α → β} {l : List α} {x : α}
    (h : ∀ y ∈ l, f y = f x → y = x) : (l.map f).count (f x) = l.count x := by
  rw [List.count, List.countP_map, List.count]
  apply List.countP_congr
  intro y hy
  simp only [Function.comp, beq_iff_eq]
  exact ⟨h y hy, fun e => by rw [e]⟩

end Verif
