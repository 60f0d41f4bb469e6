import Verif.Lemmas.CellLoops
import Verif.Spec.Calls
import Mathlib.Tactic.Ring
/-! Functor calls of `CellFunctor`. -/
namespace Verif
open Spec

section
variable {P : Type}

theorem V3.dot_sub_sq_le (u v d : V3 Rat) : (u.dot d - v.dot d) ^ 2 ≤ d.dot d * distSq u v := by
  simp only [V3.dot, distSq]
  nlinarith [sq_nonneg ((u.x - v.x) * d.y - (u.y - v.y) * d.x), sq_nonneg ((u.x - v.x) * d.z - (u.z - v.z) * d.x),
    sq_nonneg ((u.y - v.y) * d.z - (u.z - v.z) * d.y)]

theorem V3.dot_self_nonneg (d : V3 Rat) : 0 ≤ d.dot d := by
  simp only [V3.dot]; nlinarith [mul_self_nonneg d.x, mul_self_nonneg d.y, mul_self_nonneg d.z]

theorem distSq_comm (u v : V3 Rat) : distSq u v = distSq v u := by simp only [distSq]; ring

theorem near_symm {pos : P → V3 Rat} {c : Rat} {a b : P} (h : Near pos c a b) : Near pos c b a := by
  unfold Near at *; rw [distSq_comm]; exact h

/-- A pair within the cutoff is never "far" by projection. -/
theorem not_farProj {pos : P → V3 Rat} {dir : V3 Rat} {c : Rat} {a b : P} (h : Near pos c a b) :
    farProj dir c ((pos a).dot dir, a) ((pos b).dot dir, b) = false := by
  simp only [farProj, decide_eq_false_iff_not, not_lt]
  have h1 := V3.dot_sub_sq_le (pos a) (pos b) dir
  have h2 := V3.dot_self_nonneg dir
  unfold Near at h
  nlinarith [mul_le_mul_of_nonneg_left h h2]

theorem farProj_mono {dir : V3 Rat} {c : Rat} (x z y : Rat × P) (h1 : x.1 ≤ z.1) (h2 : z.1 ≤ y.1)
    (h : farProj dir c x z = true) : farProj dir c x y = true := by
  simp only [farProj, decide_eq_true_eq] at *
  nlinarith

theorem IsSortedView.map_snd {pos : P → V3 Rat} {dir : V3 Rat} {cell : List P} {view : List (Rat × P)}
    (h : IsSortedView pos dir cell view) : (view.map Prod.snd).Perm cell := by
  have := h.1.map Prod.snd
  rwa [List.map_map, show (Prod.snd ∘ fun p => ((pos p).dot dir, p)) = id from rfl, List.map_id] at this

theorem IsSortedView.mem {pos : P → V3 Rat} {dir : V3 Rat} {cell : List P} {view : List (Rat × P)}
    (h : IsSortedView pos dir cell view) {p : P} (hp : p ∈ cell) : ((pos p).dot dir, p) ∈ view :=
  h.1.symm.subset (List.mem_map.2 ⟨p, hp, rfl⟩)

theorem IsSortedView.of_mem {pos : P → V3 Rat} {dir : V3 Rat} {cell : List P} {view : List (Rat × P)}
    (h : IsSortedView pos dir cell view) {t : Rat × P} (ht : t ∈ view) : t.2 ∈ cell ∧ t.1 = (pos t.2).dot dir := by
  obtain ⟨p, hp, rfl⟩ := List.mem_map.1 (h.1.subset ht)
  exact ⟨hp, rfl⟩
end

section
variable {P : Type} [DecidableEq P]

theorem single_unordered {isHalo : P → Bool} (l : List (P × P)) (a b : P) :
    timesUnordered (l.flatMap fun t => interactParticles isHalo true t.1 t.2) a b = l.countP (isPair id a b) := by
  unfold timesUnordered
  apply countP_flatMap_indicator
  intro t _
  simp [interactParticles, isPair, id, List.countP_cons]

theorem single_directed {isHalo : P → Bool} {l : List (P × P)} {a b : P} (hab : a ≠ b)
    (hne : ∀ t ∈ l, t.1 ≠ t.2) :
    timesDirected (l.flatMap fun t => interactParticles isHalo false t.1 t.2) a b =
      if isHalo a then 0 else l.countP (isPair id a b) := by
  unfold timesDirected
  by_cases hh : isHalo a = true
  · rw [if_pos hh, List.countP_eq_zero]
    intro c hc hcc
    simp only [List.mem_flatMap] at hc
    obtain ⟨t, _, hc⟩ := hc
    simp only [decide_eq_true_eq] at hcc
    simp only [interactParticles, Bool.false_eq_true, if_false, List.mem_append] at hc
    rcases hc with hc | hc <;> split at hc <;> simp at hc
    · subst hc; simp_all
    · subst hc; simp_all
  · rw [if_neg hh]
    apply countP_flatMap_indicator
    intro t ht
    have := hne t ht
    by_cases h1 : t.1 = a
    · have h2 : t.2 ≠ a := by rw [← h1]; exact this.symm
      by_cases h3 : isHalo t.2 = true <;>
        simp [interactParticles, isPair, id, h1, h2, hh, h3, hab, List.countP_cons]
    · by_cases h3 : isHalo t.1 = true <;> by_cases h4 : isHalo t.2 = true <;>
        by_cases h2 : t.2 = a <;> simp_all [interactParticles, isPair, id, List.countP_cons]

theorem cross_unordered {l : List (P × P)} {a b : P} (bidi : Bool)
    (hdis : ∀ t ∈ l, ¬ (t.1 = b ∧ t.2 = a)) :
    timesUnordered (l.flatMap fun t => interactCross true bidi t.1 t.2) a b =
      l.countP (fun t => t.1 = a ∧ t.2 = b) := by
  unfold timesUnordered
  apply countP_flatMap_indicator
  intro t ht
  have := hdis t ht
  simp [interactCross, List.countP_cons, this]

theorem cross_directed {l : List (P × P)} {a b : P} (bidi : Bool)
    (hdis : ∀ t ∈ l, ¬ (t.1 = b ∧ t.2 = a)) :
    timesDirected (l.flatMap fun t => interactCross false bidi t.1 t.2) a b =
      l.countP (fun t => t.1 = a ∧ t.2 = b) := by
  unfold timesDirected
  apply countP_flatMap_indicator
  intro t ht
  have := hdis t ht
  have h2 : ¬ (t.2 = a ∧ t.1 = b) := fun h => this ⟨h.2, h.1⟩
  cases bidi <;> simp [interactCross, List.countP_cons, h2]

theorem cross_directed_rev {l : List (P × P)} {a b : P} (bidi : Bool)
    (hdis : ∀ t ∈ l, ¬ (t.1 = b ∧ t.2 = a)) :
    timesDirected (l.flatMap fun t => interactCross false bidi t.1 t.2) b a =
      if bidi then l.countP (fun t => t.1 = a ∧ t.2 = b) else 0 := by
  unfold timesDirected
  cases bidi
  · simp only [Bool.false_eq_true, if_false]
    rw [List.countP_eq_zero]
    intro c hc hcc
    simp only [List.mem_flatMap] at hc
    obtain ⟨t, ht, hc⟩ := hc
    simp [interactCross] at hc
    subst hc
    simp only [decide_eq_true_eq] at hcc
    exact hdis t ht hcc
  · simp only [if_true]
    apply countP_flatMap_indicator
    intro t ht
    have := hdis t ht
    simp [interactCross, List.countP_cons, this, and_comm]

end

section
variable {P : Type} [DecidableEq P]

omit [DecidableEq P] in
theorem pairwise_zero {X : Type} (l : List X) : l.Pairwise (fun _ _ => (0 : Rat) ≤ 0) := by
  induction l with
  | nil => exact List.Pairwise.nil
  | cons x l ih => exact List.Pairwise.cons (fun _ _ => le_refl _) ih

/-- The pairs over which `processCellAoS` loops. -/
def cellPairs (threshold : Nat) (cutoff : Rat) (dir : V3 Rat) (cell : List P) (view : List (Rat × P)) : List (P × P) :=
  if cell.length > threshold then (pairLoop (farProj dir cutoff) view).map fun t => (t.1.2, t.2.2)
  else pairLoop (fun _ _ => false) cell

omit [DecidableEq P] in
theorem processCellAoS_eq (isHalo : P → Bool) (newton3 : Bool) (threshold : Nat) (cutoff : Rat) (dir : V3 Rat)
    (cell : List P) (view : List (Rat × P)) : processCellAoS isHalo newton3 threshold cutoff dir cell view =
      (cellPairs threshold cutoff dir cell view).flatMap fun t => interactParticles isHalo newton3 t.1 t.2 := by
  unfold processCellAoS cellPairs
  split <;> simp [List.flatMap_map]

theorem isPair_map (a b : P) (l : List ((Rat × P) × (Rat × P))) :
    (l.map fun t => (t.1.2, t.2.2)).countP (isPair id a b) = l.countP (isPair Prod.snd a b) := by
  rw [List.countP_map]; rfl

section
variable {pos : P → V3 Rat} {threshold : Nat} {cutoff : Rat} {dir : V3 Rat} {cell : List P} {view : List (Rat × P)}
  {a b : P}

omit [DecidableEq P] in
theorem mem_cellPairs (hv : IsSortedView pos dir cell view) {t : P × P}
    (ht : t ∈ cellPairs threshold cutoff dir cell view) : t.1 ∈ cell ∧ t.2 ∈ cell := by
  unfold cellPairs at ht
  split at ht
  · obtain ⟨s, hs, rfl⟩ := List.mem_map.1 ht
    have := mem_pairLoop hs
    exact ⟨(hv.of_mem this.1).1, (hv.of_mem this.2).1⟩
  · exact mem_pairLoop ht

omit [DecidableEq P] in
theorem cellPairs_ne (hnd : cell.Nodup) (hv : IsSortedView pos dir cell view) {t : P × P}
    (ht : t ∈ cellPairs threshold cutoff dir cell view) : t.1 ≠ t.2 := by
  unfold cellPairs at ht
  split at ht
  · obtain ⟨s, hs, rfl⟩ := List.mem_map.1 ht
    exact pairLoop_ne (get := Prod.snd) (hv.map_snd.nodup_iff.2 hnd) hs
  · exact pairLoop_ne (get := id) (by simpa using hnd) ht

theorem cellPairs_le_one (hab : a ≠ b) (hnd : cell.Nodup) (hv : IsSortedView pos dir cell view) :
    (cellPairs threshold cutoff dir cell view).countP (isPair id a b) ≤ 1 := by
  unfold cellPairs
  split
  · rw [isPair_map]
    exact pairLoop_le_one hab (hv.map_snd.nodup_iff.2 hnd)
  · exact pairLoop_le_one hab (by simpa using hnd)

theorem cellPairs_eq_one (hab : a ≠ b) (hnd : cell.Nodup) (hv : IsSortedView pos dir cell view) (ha : a ∈ cell)
    (hb : b ∈ cell) (h : cell.length ≤ threshold ∨ Near pos cutoff a b) :
    (cellPairs threshold cutoff dir cell view).countP (isPair id a b) = 1 := by
  unfold cellPairs
  split
  · rename_i hl
    have hn : Near pos cutoff a b := by
      rcases h with h | h
      · omega
      · exact h
    rw [isPair_map]
    exact pairLoop_eq_one (get := Prod.snd) (key := Prod.fst) (u := ((pos a).dot dir, a)) (v := ((pos b).dot dir, b))
      hv.2 (hv.map_snd.nodup_iff.2 hnd) hab (hv.mem ha) (hv.mem hb) farProj_mono (not_farProj hn) (not_farProj (near_symm hn))
  · exact pairLoop_eq_one (get := id) (key := fun _ => 0) (u := a) (v := b) (pairwise_zero _) (by simpa using hnd) hab ha hb
      (fun _ _ _ _ _ h => h) rfl rfl
end

/-- The pairs over which `processCellPairAoS` loops. -/
def crossPairs (threshold : Nat) (cutoff : Rat) (dir : V3 Rat) (cell1 cell2 : List P) (view1 view2 : List (Rat × P)) :
    List (P × P) :=
  if cell1.length + cell2.length > threshold ∧ dir ≠ ⟨0, 0, 0⟩ then
    (crossLoop (farProj dir cutoff) view1 view2).map fun t => (t.1.2, t.2.2)
  else crossLoop (fun _ _ => false) cell1 cell2

omit [DecidableEq P] in
theorem processCellPairAoS_eq (newton3 bidirectional : Bool) (threshold : Nat) (cutoff : Rat) (dir : V3 Rat)
    (cell1 cell2 : List P) (view1 view2 : List (Rat × P)) :
    processCellPairAoS newton3 bidirectional threshold cutoff dir cell1 cell2 view1 view2 =
      (crossPairs threshold cutoff dir cell1 cell2 view1 view2).flatMap fun t =>
        interactCross newton3 bidirectional t.1 t.2 := by
  unfold processCellPairAoS crossPairs
  split <;> simp [List.flatMap_map]

section
variable {pos : P → V3 Rat} {threshold : Nat} {cutoff : Rat} {dir : V3 Rat} {cell1 cell2 : List P}
  {view1 view2 : List (Rat × P)} {a b : P}

omit [DecidableEq P] in
theorem mem_crossPairs (hv1 : IsSortedView pos dir cell1 view1) (hv2 : IsSortedView pos dir cell2 view2) {t : P × P}
    (ht : t ∈ crossPairs threshold cutoff dir cell1 cell2 view1 view2) : t.1 ∈ cell1 ∧ t.2 ∈ cell2 := by
  unfold crossPairs at ht
  split at ht
  · obtain ⟨s, hs, rfl⟩ := List.mem_map.1 ht
    have := mem_crossLoop hs
    exact ⟨(hv1.of_mem this.1).1, (hv2.of_mem this.2).1⟩
  · exact mem_crossLoop ht

theorem crossPairs_le_one (hnd1 : cell1.Nodup) (hnd2 : cell2.Nodup) (hv1 : IsSortedView pos dir cell1 view1)
    (hv2 : IsSortedView pos dir cell2 view2) :
    (crossPairs threshold cutoff dir cell1 cell2 view1 view2).countP (fun t => t.1 = a ∧ t.2 = b) ≤ 1 := by
  unfold crossPairs
  split
  · rw [List.countP_map]
    exact crossLoop_le_one (get := Prod.snd) (hv1.map_snd.nodup_iff.2 hnd1) (hv2.map_snd.nodup_iff.2 hnd2)
  · exact crossLoop_le_one (get := id) (by simpa using hnd1) (by simpa using hnd2)

theorem crossPairs_eq_one (hnd1 : cell1.Nodup) (hnd2 : cell2.Nodup) (hv1 : IsSortedView pos dir cell1 view1)
    (hv2 : IsSortedView pos dir cell2 view2) (ha : a ∈ cell1) (hb : b ∈ cell2)
    (h : cell1.length + cell2.length ≤ threshold ∨ dir = ⟨0, 0, 0⟩ ∨
      (Near pos cutoff a b ∧ NotBehind pos dir cutoff cell1 cell2)) :
    (crossPairs threshold cutoff dir cell1 cell2 view1 view2).countP (fun t => t.1 = a ∧ t.2 = b) = 1 := by
  unfold crossPairs
  split
  · rename_i hl
    obtain ⟨hn, hnb⟩ : Near pos cutoff a b ∧ NotBehind pos dir cutoff cell1 cell2 := by
      rcases h with h | h | h
      · omega
      · exact absurd h hl.2
      · exact h
    rw [List.countP_map]
    refine crossLoop_eq_one (get := Prod.snd) (key := Prod.fst) (u := ((pos a).dot dir, a)) (v := ((pos b).dot dir, b))
      hv2.2 (hv1.map_snd.nodup_iff.2 hnd1) (hv2.map_snd.nodup_iff.2 hnd2) (hv1.mem ha) (hv2.mem hb) ?_ (not_farProj hn)
    intro z hz hzb hst
    have hz' := hv2.of_mem hz
    by_cases hlt : z.1 < (pos a).dot dir
    · exfalso
      have := hnb a ha z.2 hz'.1 (by rw [← hz'.2]; exact hlt)
      rw [← hz'.2] at this
      simp only [farProj, decide_eq_true_eq] at hst
      nlinarith
    · exact farProj_mono _ z _ (le_of_not_gt hlt) hzb hst
  · exact crossLoop_eq_one (get := id) (key := fun _ => 0) (u := a) (v := b) (pairwise_zero _) (by simpa using hnd1)
      (by simpa using hnd2) ha hb (fun _ _ _ h => h) rfl
end
end

end Verif
