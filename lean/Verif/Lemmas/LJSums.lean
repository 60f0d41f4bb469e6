import Verif.Lemmas.LJMemory
/-! What a list of directed interactions adds, particle by particle. -/
namespace Verif
open Spec
section
variable {K : Type} [Field K] [LinearOrder K] [IsStrictOrderedRing K] {P : Type} [DecidableEq P]
variable {c : LJCfg K} {par : LJParams K}

theorem events_force (rc2 : K) (mol : P → Mol K) (a : P) (es : List (P × P)) :
    ((es.map (ljEvent par rc2 mol)).sum).force a =
      (((es.filter fun e => e.1 = a).map fun e => ljForceOn par rc2 (mol a) (mol e.2)).sum).fin := by
  induction es with
  | nil => rfl
  | cons e es ih =>
    rw [List.map_cons, List.sum_cons, LJState.add_force, Pi.add_apply, ih]
    by_cases h : e.1 = a
    · rw [List.filter_cons_of_pos (by simpa using h), List.map_cons, List.sum_cons, V3.fin_add]
      congr 1
      simp only [ljEvent, h, Pi.single_eq_same]
    · rw [List.filter_cons_of_neg (by simpa using h)]
      simp only [ljEvent]
      rw [Pi.single_eq_of_ne (fun h' => h h'.symm), zero_add]

theorem events_globals (rc2 : K) (mol : P → Mol K) (es : List (P × P)) :
    ((es.map (ljEvent par rc2 mol)).sum).globals =
      ⟨(((es.filter fun e => (mol e.1).own = .owned).map fun e => ljVirialOf par rc2 (mol e.1) (mol e.2)).sum).fin,
        .fin (((es.filter fun e => (mol e.1).own = .owned).map fun e => 6 * ljEnergyOf par rc2 (mol e.1) (mol e.2)).sum)⟩ := by
  induction es with
  | nil => rfl
  | cons e es ih =>
    rw [List.map_cons, List.sum_cons, LJState.add_globals, ih]
    by_cases h : (mol e.1).own = .owned
    · rw [List.filter_cons_of_pos (by simpa using h), List.map_cons, List.sum_cons, List.map_cons, List.sum_cons]
      simp only [ljEvent, ljShare, if_pos h]
      rfl
    · rw [List.filter_cons_of_neg (by simpa using h)]
      simp only [ljEvent, ljShare, if_neg h, zero_add]

/-- All ordered pairs of different elements. -/
def orderedPairs (l : List P) : List (P × P) := l.flatMap fun x => (l.filter fun y => y ≠ x).map fun y => (x, y)

omit [DecidableEq P] in
theorem contributions_single_cons (newton3 : Bool) (x : P) (l : List P) :
    contributions (soaSingle newton3 (x :: l)) = (l.flatMap fun y => [(x, y), (y, x)]) ++ contributions (soaSingle newton3 l) := by
  have tw : ∀ m : List P, untilBreak (fun _ => false) m = m := by
    intro m
    unfold untilBreak
    induction m with
    | nil => rfl
    | cons y m ih => rw [List.takeWhile_cons_of_pos rfl, ih]
  unfold soaSingle
  simp only [pairLoop, tw, List.flatMap_append, contributions_append]
  congr 1
  unfold contributions
  rw [List.flatMap_map, List.flatMap_assoc]
  refine congrArg List.flatten (List.map_congr_left ?_)
  intro y _
  cases newton3 <;> rfl

theorem contributions_single_perm (newton3 : Bool) {l : List P} (hl : l.Nodup) :
    (contributions (soaSingle newton3 l)).Perm (orderedPairs l) := by
  induction l with
  | nil => exact List.Perm.nil
  | cons x l ih =>
    have hx := (List.nodup_cons.1 hl).1
    have ih := ih (List.nodup_cons.1 hl).2
    rw [contributions_single_cons]
    unfold orderedPairs
    rw [List.flatMap_cons]
    have h1 : ((x :: l).filter fun y => y ≠ x) = l := by
      rw [List.filter_cons_of_neg (by simp)]
      refine List.filter_eq_self.2 ?_
      intro y hy
      simp only [decide_eq_true_eq]
      rintro rfl
      exact hx hy
    rw [h1]
    have h2 : (l.flatMap fun y => ((x :: l).filter fun z => z ≠ y).map fun z => (y, z)) =
        l.flatMap fun y => [(y, x)] ++ ((l.filter fun z => z ≠ y).map fun z => (y, z)) := by
      refine congrArg List.flatten (List.map_congr_left ?_)
      intro y hy
      rw [List.filter_cons_of_pos (by simp only [decide_eq_true_eq]; rintro rfl; exact hx hy)]
      rfl
    rw [h2]
    have h3 : (l.flatMap fun y => [(x, y), (y, x)]).Perm (l.map (fun y => (x, y)) ++ l.flatMap fun y => [(y, x)]) := by
      have := (List.flatMap_append_perm l (fun y => [(x, y)]) (fun y => [(y, x)])).symm
      rw [List.map_eq_flatMap]
      exact this
    have h4 := (List.flatMap_append_perm l (fun y => [(y, x)]) (fun y => (l.filter fun z => z ≠ y).map fun z => (y, z)))
    refine (h3.append ih).trans ?_
    rw [List.append_assoc]
    refine List.Perm.append_left _ ?_
    exact h4

theorem filter_orderedPairs {l : List P} (hl : l.Nodup) {a : P} (ha : a ∈ l) :
    ((orderedPairs l).filter fun e => e.1 = a) = (l.filter fun y => y ≠ a).map fun y => (a, y) := by
  unfold orderedPairs
  rw [List.filter_flatMap]
  have : ∀ m : List P, m.Nodup → a ∈ m → (m.flatMap fun x => ((l.filter fun y => y ≠ x).map fun y => (x, y)).filter fun e => e.1 = a) =
      (l.filter fun y => y ≠ a).map fun y => (a, y) := by
    intro m hm ham
    have skip : ∀ m' : List P, a ∉ m' → (m'.flatMap fun x => ((l.filter fun y => y ≠ x).map fun y => (x, y)).filter fun e => e.1 = a) = [] := by
      intro m' hm'
      rw [List.flatMap_eq_nil_iff]
      intro x hx
      rw [List.filter_eq_nil_iff]
      intro e he
      obtain ⟨y, -, rfl⟩ := List.mem_map.1 he
      simp only [decide_eq_true_eq]
      rintro rfl
      exact hm' hx
    induction m with
    | nil => cases ham
    | cons x m ih =>
      obtain ⟨hxm, hm'⟩ := List.nodup_cons.1 hm
      rw [List.flatMap_cons]
      by_cases hxa : x = a
      · subst hxa
        rw [skip m hxm, List.append_nil]
        refine List.filter_eq_self.2 ?_
        intro e he
        obtain ⟨y, -, rfl⟩ := List.mem_map.1 he
        simp
      · rw [ih hm' ((List.mem_cons.1 ham).resolve_left fun h' => hxa h'.symm)]
        rw [show (((l.filter fun y => y ≠ x).map fun y => (x, y)).filter fun e => e.1 = a) = [] from by
          rw [List.filter_eq_nil_iff]
          intro e he
          obtain ⟨y, -, rfl⟩ := List.mem_map.1 he
          simpa using hxa]
        rfl
  exact this l hl ha

theorem filter_orderedPairs_of_notMem {l : List P} {a : P} (ha : a ∉ l) : ((orderedPairs l).filter fun e => e.1 = a) = [] := by
  rw [List.filter_eq_nil_iff]
  intro e he
  unfold orderedPairs at he
  obtain ⟨x, hx, he⟩ := List.mem_flatMap.1 he
  obtain ⟨y, -, rfl⟩ := List.mem_map.1 he
  simp only [decide_eq_true_eq]
  rintro rfl
  exact ha hx

end
end Verif
