import Verif.Model.VarVerletLists
import Verif.Lemmas.VerletListsPairwise
/-! Lemmas on the lists of VarVerletLists. -/
namespace Verif
open Spec
section
variable {P : Type} [DecidableEq P]

theorem vvlAdd_spec {m : VVLMap P} (h : (m.map Prod.fst).Nodup) (p q : P) :
    ((vvlAdd m p q).map Prod.fst).Nodup ∧ (vlcEntries (vvlAdd m p q)).Perm (vlcEntries m ++ [(p, q)]) := by
  unfold vvlAdd
  split
  · rename_i hp
    constructor
    · rw [List.map_map]
      rw [List.map_congr_left (g := Prod.fst)]
      · exact h
      · intro e _
        simp only [Function.comp]
        split <;> rfl
    · induction m with
      | nil => simp at hp
      | cons e m ih =>
        simp only [List.map_cons, List.nodup_cons] at h
        simp only [List.map_cons, List.mem_cons] at hp
        by_cases he : p = e.1
        · subst he
          have hm : (m.map fun e' => if e'.1 = e.1 then (e'.1, e'.2 ++ [q]) else e') = m := by
            conv_rhs => rw [← List.map_id m]
            apply List.map_congr_left
            intro e' he'
            rw [if_neg]
            · rfl
            · intro hx
              exact h.1 (List.mem_map.2 ⟨e', he', hx⟩)
          rw [List.map_cons, hm, if_pos rfl]
          unfold vlcEntries
          rw [List.flatMap_cons, List.flatMap_cons, List.map_append, List.append_assoc, List.append_assoc]
          exact (List.perm_append_comm).append_left _
        · rw [List.map_cons, if_neg (fun hx => he hx.symm)]
          have ih := ih h.2 (hp.resolve_left he)
          unfold vlcEntries at ih ⊢
          rw [List.flatMap_cons, List.flatMap_cons, List.append_assoc]
          exact ih.append_left _
  · rename_i hp
    constructor
    · rw [List.map_append, List.map_cons, List.map_nil]
      rw [List.nodup_append]
      refine ⟨h, by simp, ?_⟩
      intro a ha b hb
      rw [List.mem_singleton] at hb
      subst hb
      intro hx
      exact hp (hx ▸ ha)
    · unfold vlcEntries
      rw [List.flatMap_append]
      simp

theorem vvlFold_spec (pos : P → V3 Rat) (il : Rat) (calls : List (PairCall P)) {m : VVLMap P} (h : (m.map Prod.fst).Nodup) :
    ((calls.foldl (vvlGenerate pos il) m).map Prod.fst).Nodup ∧ (vlcEntries (calls.foldl (vvlGenerate pos il) m)).Perm
      (vlcEntries m ++ (calls.filter fun c => distSq (pos c.p) (pos c.q) < il * il).map fun c => (c.p, c.q)) := by
  induction calls generalizing m with
  | nil => simpa using h
  | cons c calls ih =>
    rw [List.foldl_cons, List.filter_cons]
    unfold vvlGenerate
    by_cases hc : distSq (pos c.p) (pos c.q) < il * il
    · rw [if_pos hc, if_pos (by simpa using hc)]
      obtain ⟨h1, h2⟩ := vvlAdd_spec h c.p c.q
      obtain ⟨h3, h4⟩ := ih h1
      refine ⟨h3, h4.trans ?_⟩
      rw [List.map_cons]
      refine (h2.append_right _).trans ?_
      rw [List.append_assoc]
      rfl
    · rw [if_neg hc, if_neg (by simpa using hc)]
      exact ih h

omit [DecidableEq P] in
theorem range_getD_flatMap_le {X Y : Type} (l : List (List X)) (n : Nat) (hn : l.length ≤ n) (F : List X → List Y) (hF : F [] = []) :
    ((List.range n).flatMap fun t => F (l.getD t [])) = l.flatMap F := by
  induction l generalizing n with
  | nil => simp [hF]
  | cons x l ih =>
    obtain ⟨n, rfl⟩ : ∃ k, n = k + 1 := ⟨n - 1, by simp at hn; omega⟩
    rw [List.range_succ_eq_map, List.flatMap_cons, List.flatMap_map, List.flatMap_cons]
    congr 1
    exact ih n (by simpa using hn)

theorem vlcEntries_perm {P : Type} {l l' : List (P × List P)} (h : l.Perm l') : (vlcEntries l).Perm (vlcEntries l') := h.flatMap_right _

end
end Verif
