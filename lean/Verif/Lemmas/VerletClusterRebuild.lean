import Verif.Lemmas.VerletClusterGrid
import Verif.Lemmas.Remainder
/-! Sorting particles into towers. -/
namespace Verif
open Spec

section
variable {P : Type} [DecidableEq P]

private theorem inBoxB_iff' {p lo hi : V3 Rat} : inBoxB p lo hi = true ↔ InBox p lo hi := by
  unfold inBoxB InBox
  simp only [Bool.and_eq_true, decide_eq_true_eq]
  tauto

theorem count_range_single {N k : Nat} (hk : k < N) (f : Nat → List P) (p : P) (h : ∀ i, i < N → i ≠ k → (f i).count p = 0) :
    (((List.range N).map f).flatten).count p = (f k).count p := by
  rw [List.count_flatten, List.map_map]
  induction N with
  | zero => omega
  | succ N ih =>
    rw [List.range_succ, List.map_append, List.sum_append]
    simp only [List.map_cons, List.map_nil, List.sum_cons, List.sum_nil, Function.comp, Nat.add_zero]
    by_cases hN : k = N
    · subst hN
      have : ((List.range k).map (List.count p ∘ f)).sum = 0 := by
        rw [List.sum_eq_zero]
        intro x hx
        obtain ⟨i, hi, rfl⟩ := List.mem_map.1 hx
        rw [List.mem_range] at hi
        exact h i (by omega) (by omega)
      rw [this]; omega
    · have := ih (by omega) (fun i hi hik => h i (by omega) hik)
      rw [this, h N (by omega) (by omega)]
      omega

theorem vclSortIn_length (g : VCLGrid) (pos : P → V3 Rat) (l : List P) (towers : List (List P)) :
    (l.foldl (vclSortIn g pos) towers).length = towers.length := by
  induction l generalizing towers with
  | nil => rfl
  | cons q l ih =>
    rw [List.foldl_cons, ih]
    unfold vclSortIn
    split <;> simp

theorem vclSortIn_count (g : VCLGrid) (pos : P → V3 Rat) (l : List P) (towers : List (List P)) (p : P) (i : Nat) (hi : i < towers.length) :
    ((l.foldl (vclSortIn g pos) towers).getD i []).count p = (towers.getD i []).count p +
      (if inBoxB (pos p) g.haloMin g.haloMax = true ∧ g.to1D (g.towerAt (pos p)) = i then l.count p else 0) := by
  induction l generalizing towers with
  | nil => simp
  | cons q l ih =>
    rw [List.foldl_cons, ih _ (by unfold vclSortIn; split <;> simpa using hi)]
    have hstep : ((vclSortIn g pos towers q).getD i []).count p = (towers.getD i []).count p +
        (if inBoxB (pos p) g.haloMin g.haloMax = true ∧ g.to1D (g.towerAt (pos p)) = i ∧ q = p then 1 else 0) := by
      unfold vclSortIn
      by_cases hq : inBoxB (pos q) g.haloMin g.haloMax = true
      · rw [if_pos hq]
        simp only [List.getD_eq_getElem?_getD, List.getElem?_modify, List.getElem?_eq_getElem hi]
        by_cases hidx : g.to1D (g.towerAt (pos q)) = i
        · simp only [Option.map_eq_map, Option.map_some, if_pos hidx]
          simp only [Option.map_some, Option.getD_some, List.count_append, List.count_cons, List.count_nil]
          by_cases hqp : q = p
          · subst hqp; simp [hq, hidx]
          · simp [hqp]
        · simp only [Option.map_eq_map, Option.map_some, if_neg hidx, Option.getD_some]
          rw [if_neg]
          · rfl
          · rintro ⟨-, h2, h3⟩; subst h3; exact hidx h2
      · rw [if_neg hq, if_neg]
        · rfl
        · rintro ⟨h1, -, h3⟩; subst h3; exact hq h1
    rw [hstep, List.count_cons]
    by_cases hc : inBoxB (pos p) g.haloMin g.haloMax = true ∧ g.to1D (g.towerAt (pos p)) = i
    · rw [if_pos hc, if_pos hc]
      by_cases hqp : q = p
      · rw [if_pos ⟨hc.1, hc.2, hqp⟩]; simp [hqp]; omega
      · rw [if_neg (fun h => hqp h.2.2)]; simp [hqp]
    · rw [if_neg hc, if_neg hc, if_neg (fun h => hc ⟨h.1, h.2.1⟩)]

theorem vclRebuild_length (g : VCLGrid) (pos : P → V3 Rat) (own : P → Ownership) (old : List (List P)) (toAdd : List P) :
    (vclRebuild g pos own old toAdd).length = g.tx * g.ty := by
  unfold vclRebuild
  simp only [vclSortIn_length, List.length_map, List.length_range]

theorem flatten_take_range (old : List (List P)) (N : Nat) : ((List.range N).flatMap fun i => old.getD i []) = (old.take N).flatten := by
  induction N with
  | zero => simp
  | succ N ih =>
    rw [List.range_succ, List.flatMap_append, ih, List.flatMap_singleton, List.take_succ, List.flatten_append]
    congr 1
    rw [List.getD_eq_getElem?_getD]
    cases old[N]? <;> simp

/-- Particles of the halo box: all of them end up in the tower of their position. -/
theorem vclRebuild_count {g : VCLGrid} {ox oy : Nat} (hg : g.Ok ox oy) (pos : P → V3 Rat) (own : P → Ownership) (old : List (List P))
    (toAdd : List P) (p : P) (hp : InBox (pos p) g.haloMin g.haloMax) (hown : own p ≠ .dummy) (i : Nat) (hi : i < g.tx * g.ty) :
    ((vclRebuild g pos own old toAdd).getD i []).count p =
      if g.to1D (g.towerAt (pos p)) = i then old.flatten.count p + toAdd.count p else 0 := by
  unfold vclRebuild
  simp only
  set old' := old.map fun t => t.filter fun p => decide (own p ≠ .dummy) with hold
  set inside : Nat → P → Bool := fun i p => inBoxB (pos p) (g.towerBox (g.to2D i)).1 (g.towerBox (g.to2D i)).2 with hins
  rw [vclSortIn_count _ _ _ _ _ _ (by simpa using hi)]
  have hin : ∀ j, j < g.tx * g.ty → inside j p = true → g.to1D (g.towerAt (pos p)) = j := by
    intro j hj h
    have hb := inBoxB_iff'.1 h
    obtain ⟨k1, k2⟩ := VCLGrid.to2D_lt hj
    rw [hg.towerAt_of_box k1 k2 hp hb, VCLGrid.to1D_to2D hj]
  have hkept : ∀ j, j < g.tx * g.ty → (((List.range (g.tx * g.ty)).map fun i => (old'.getD i []).filter (inside i)).getD j []).count p =
      if inside j p then (old'.getD j []).count p else 0 := by
    intro j hj
    rw [List.getD_eq_getElem?_getD, List.getElem?_map, List.getElem?_range hj]
    simp only [Option.map_some, Option.getD_some]
    by_cases h : inside j p = true
    · rw [if_pos h, List.count_filter h]
    · rw [if_neg h]
      rw [List.count_eq_zero]
      intro hm; exact h (List.mem_filter.1 hm).2
  rw [hkept i hi]
  by_cases hidx : g.to1D (g.towerAt (pos p)) = i
  · rw [if_pos hidx, if_pos (c := _ ∧ _) ⟨inBoxB_iff'.2 hp, hidx⟩]
    simp only [List.flatten_cons, List.flatten_append, List.count_append]
    have hcount : old.flatten.count p = old'.flatten.count p := by
      rw [List.count_flatten, List.count_flatten, hold, List.map_map]
      congr 1
      apply List.map_congr_left
      intro t _
      simp only [Function.comp]
      rw [List.count_filter (by simpa using hown)]
    have hsplit : old'.flatten.count p = (old'.take (g.tx * g.ty)).flatten.count p + (old'.drop (g.tx * g.ty)).flatten.count p := by
      rw [← List.count_append, ← List.flatten_append, List.take_append_drop]
    have hperm : (((List.range (g.tx * g.ty)).map fun i => (old'.getD i []).filter (inside i)).flatten).count p +
        (((List.range (g.tx * g.ty)).map fun i => (old'.getD i []).filter fun q => !inside i q).flatten).count p =
        (old'.take (g.tx * g.ty)).flatten.count p := by
      rw [← flatten_take_range]
      generalize g.tx * g.ty = N
      induction N with
      | zero => simp
      | succ N ih =>
        simp only [List.range_succ, List.map_append, List.flatten_append, List.count_append, List.flatMap_append, List.map_cons, List.map_nil,
          List.flatten_cons, List.flatten_nil, List.append_nil, List.flatMap_cons, List.flatMap_nil]
        rw [← ih]
        have := (List.filter_append_perm (inside N) (old'.getD N [])).count_eq p
        rw [List.count_append] at this
        omega
    have hsingle := count_range_single hi (fun i => (old'.getD i []).filter (inside i)) p (by
      intro j hj hji
      rw [List.count_eq_zero]
      intro hm
      exact hji ((hin j hj (List.mem_filter.1 hm).2).symm.trans hidx))
    have hk := hkept i hi
    rw [List.getD_eq_getElem?_getD, List.getElem?_map, List.getElem?_range hi] at hk
    simp only [Option.map_some, Option.getD_some] at hk
    rw [hk] at hsingle
    simp only [hins] at hperm hsingle hk ⊢
    omega
  · rw [if_neg hidx, if_neg (c := _ ∧ _) (fun h => hidx h.2), if_neg (fun h => hidx (hin i hi h))]

/-- Nothing is created: a particle is not more often in the towers than before, and dummies are gone. -/
theorem vclRebuild_count_le (g : VCLGrid) (pos : P → V3 Rat) (own : P → Ownership) (old : List (List P)) (toAdd : List P) (p : P) :
    (vclRebuild g pos own old toAdd).flatten.count p ≤ (if own p = .dummy then 0 else old.flatten.count p) + toAdd.count p := by
  unfold vclRebuild
  simp only
  set old' := old.map fun t => t.filter fun p => decide (own p ≠ .dummy) with hold
  set inside : Nat → P → Bool := fun i p => inBoxB (pos p) (g.towerBox (g.to2D i)).1 (g.towerBox (g.to2D i)).2 with hins
  have hfold : ∀ (l : List P) (ts : List (List P)), (l.foldl (vclSortIn g pos) ts).flatten.count p ≤ ts.flatten.count p + l.count p := by
    intro l
    induction l with
    | nil => intro ts; simp
    | cons q l ih =>
      intro ts
      rw [List.foldl_cons]
      refine (ih _).trans ?_
      have : (vclSortIn g pos ts q).flatten.count p ≤ ts.flatten.count p + (if q = p then 1 else 0) := by
        unfold vclSortIn
        split
        · generalize g.to1D (g.towerAt (pos q)) = k
          induction ts generalizing k with
          | nil => simp
          | cons t ts iht =>
            cases k with
            | zero => simp [List.count_cons]; omega
            | succ k =>
              have := iht k
              simp only [List.modify_succ_cons, List.flatten_cons, List.count_append]
              omega
        · omega
      rw [List.count_cons]
      simp only [beq_iff_eq]
      omega
  refine (hfold _ _).trans ?_
  simp only [List.flatten_cons, List.flatten_append, List.count_append]
  have hcount : old'.flatten.count p = if own p = .dummy then 0 else old.flatten.count p := by
    rw [List.count_flatten, List.count_flatten, hold, List.map_map]
    by_cases hd : own p = .dummy
    · rw [if_pos hd, List.sum_eq_zero]
      intro x hx
      obtain ⟨t, -, rfl⟩ := List.mem_map.1 hx
      simp only [Function.comp]
      rw [List.count_eq_zero]
      intro hm; simpa [hd] using (List.mem_filter.1 hm).2
    · rw [if_neg hd]
      congr 1
      apply List.map_congr_left
      intro t _
      simp only [Function.comp]
      rw [List.count_filter (by simpa using hd)]
  have hsplit : old'.flatten.count p = (old'.take (g.tx * g.ty)).flatten.count p + (old'.drop (g.tx * g.ty)).flatten.count p := by
    rw [← List.count_append, ← List.flatten_append, List.take_append_drop]
  have hperm : (((List.range (g.tx * g.ty)).map fun i => (old'.getD i []).filter (inside i)).flatten).count p +
      (((List.range (g.tx * g.ty)).map fun i => (old'.getD i []).filter fun q => !inside i q).flatten).count p =
      (old'.take (g.tx * g.ty)).flatten.count p := by
    rw [← flatten_take_range]
    generalize g.tx * g.ty = N
    induction N with
    | zero => simp
    | succ N ih =>
      simp only [List.range_succ, List.map_append, List.flatten_append, List.count_append, List.flatMap_append, List.map_cons, List.map_nil,
        List.flatten_cons, List.flatten_nil, List.append_nil, List.flatMap_cons, List.flatMap_nil]
      rw [← ih]
      have := (List.filter_append_perm (inside N) (old'.getD N [])).count_eq p
      rw [List.count_append] at this
      omega
  simp only [hins] at hperm ⊢
  omega

end
end Verif
