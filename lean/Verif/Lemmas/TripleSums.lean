import Verif.Spec.TripleForces
import Mathlib.Algebra.BigOperators.Group.List.Lemmas
/-! Sums over pairs and triples of a list. -/
namespace Verif
open Spec

section
variable {P M : Type} [DecidableEq P] [AddCommMonoid M]

private theorem filter_self {x : P} {l : List P} (h : x ∉ l) : ((x :: l).filter fun y => y ≠ x) = l := by
  rw [List.filter_cons_of_neg (by simp), List.filter_eq_self]
  intro y hy
  simpa using fun h' : y = x => h (h' ▸ hy)

private theorem filter_other {x a : P} {l : List P} (h : x ∉ l) (ha : a ∈ l) : ((x :: l).filter fun y => y ≠ a) = x :: l.filter fun y => y ≠ a := by
  rw [List.filter_cons_of_pos (by simpa using fun h' : x = a => h (h' ▸ ha))]

theorem pair_sum (H : P → P → M) (l : List P) (hl : l.Nodup) :
    (l.map fun a => ((l.filter fun b => b ≠ a).map (H a)).sum).sum = ((unorderedPairs l).map fun t => H t.1 t.2 + H t.2 t.1).sum := by
  induction l with
  | nil => rfl
  | cons x l ih =>
    obtain ⟨h1, h2⟩ := List.nodup_cons.1 hl
    rw [List.map_cons, List.sum_cons, filter_self h1]
    have e : (l.map fun a => (((x :: l).filter fun b => b ≠ a).map (H a)).sum) =
        l.map fun a => H a x + ((l.filter fun b => b ≠ a).map (H a)).sum := by
      refine List.map_congr_left fun a ha => ?_
      rw [filter_other h1 ha, List.map_cons, List.sum_cons]
    rw [e, List.sum_map_add, ih h2, ← add_assoc, ← List.sum_map_add]
    simp only [unorderedPairs, List.map_append, List.map_map, List.sum_append]
    rfl

/-- Summing over every element and the pairs of the others is summing over all triples. -/
theorem triple_sum (G : P → P → P → M) (l : List P) (hl : l.Nodup) :
    (l.map fun a => ((unorderedPairs (l.filter fun b => b ≠ a)).map fun t => G a t.1 t.2).sum).sum =
      ((unorderedTriples l).map fun t => G t.1 t.2.1 t.2.2 + (G t.2.1 t.1 t.2.2 + G t.2.2 t.1 t.2.1)).sum := by
  induction l with
  | nil => rfl
  | cons x l ih =>
    obtain ⟨h1, h2⟩ := List.nodup_cons.1 hl
    rw [List.map_cons, List.sum_cons, filter_self h1]
    have e : (l.map fun a => ((unorderedPairs ((x :: l).filter fun b => b ≠ a)).map fun t => G a t.1 t.2).sum) =
        l.map fun a => ((l.filter fun b => b ≠ a).map (G a x)).sum + ((unorderedPairs (l.filter fun b => b ≠ a)).map fun t => G a t.1 t.2).sum := by
      refine List.map_congr_left fun a ha => ?_
      rw [filter_other h1 ha]
      simp only [unorderedPairs, List.map_append, List.map_map, List.sum_append]
      rfl
    rw [e, List.sum_map_add, ih h2, ← add_assoc, pair_sum (fun a c => G a x c) l h2, ← List.sum_map_add]
    simp only [unorderedTriples, List.map_append, List.map_map, List.sum_append]
    rfl

theorem mem_unorderedPairs {l : List P} {t : P × P} (h : t ∈ unorderedPairs l) : t.1 ∈ l ∧ t.2 ∈ l := by
  induction l with
  | nil => simp [unorderedPairs] at h
  | cons x l ih =>
    simp only [unorderedPairs, List.mem_append, List.mem_map] at h
    rcases h with ⟨y, hy, rfl⟩ | h
    · exact ⟨List.mem_cons_self, List.mem_cons_of_mem _ hy⟩
    · exact ⟨List.mem_cons_of_mem _ (ih h).1, List.mem_cons_of_mem _ (ih h).2⟩

theorem ne_of_mem_unorderedPairs {l : List P} (hl : l.Nodup) {t : P × P} (h : t ∈ unorderedPairs l) : t.1 ≠ t.2 := by
  induction l with
  | nil => simp [unorderedPairs] at h
  | cons x l ih =>
    obtain ⟨h1, h2⟩ := List.nodup_cons.1 hl
    simp only [unorderedPairs, List.mem_append, List.mem_map] at h
    rcases h with ⟨y, hy, rfl⟩ | h
    · exact fun h' : x = y => h1 (h' ▸ hy)
    · exact ih h2 h

end
end Verif
