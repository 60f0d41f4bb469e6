import Verif.Lemmas.DirectSum
/-!
# C55 — DirectSum keeps the particles inside the box, hands back those outside, and finds halo copies
-/
namespace Verif
open Spec

theorem inBoxB_spec {p lo hi : V3 Rat} : inBoxB p lo hi = true ↔ InBox p lo hi := by
  unfold inBoxB InBox
  simp only [Bool.and_eq_true, decide_eq_true_eq]
  tauto

theorem dsTakeOutside_spec (bMin bMax : V3 Rat) (l : List Particle) (i : Nat) (h : ∀ p ∈ l.take i, InBox p.pos bMin bMax) :
    ((dsTakeOutside bMin bMax l i).1 ++ (dsTakeOutside bMin bMax l i).2).Perm l ∧
    (∀ p ∈ (dsTakeOutside bMin bMax l i).1, ¬ InBox p.pos bMin bMax) ∧
    (∀ p ∈ (dsTakeOutside bMin bMax l i).2, InBox p.pos bMin bMax) := by
  induction l, i using dsTakeOutside.induct bMin bMax with
  | case1 l i hi =>
    rw [dsTakeOutside, hi]
    have hl : l.length ≤ i := List.getElem?_eq_none_iff.1 hi
    rw [List.take_of_length_le hl] at h
    exact ⟨List.Perm.refl _, by simp, h⟩
  | case2 l i p hp hout ih =>
    obtain ⟨hl, -⟩ := List.getElem?_eq_some_iff.1 hp
    have htake : (swapDelete l i).take i = l.take i := by
      obtain ⟨a, b, rfl, rfl⟩ := split_at hp
      rw [swapDelete_split]
      split
      · rename_i hb; subst hb; simp
      · simp
    obtain ⟨h1, h2, h3⟩ := ih (by rw [htake]; exact h)
    have e : dsTakeOutside bMin bMax l i = (p :: (dsTakeOutside bMin bMax (swapDelete l i) i).1, (dsTakeOutside bMin bMax (swapDelete l i) i).2) := by
      rw [dsTakeOutside]
      split
      · rename_i hx; rw [hp] at hx; cases hx
      · rename_i q hx
        rw [hp] at hx
        cases hx
        rw [if_pos hout]
    rw [e]
    refine ⟨?_, ?_, h3⟩
    · refine List.Perm.trans ?_ (swapDelete_perm hp)
      exact (h1.cons p).trans (List.perm_append_singleton _ _).symm
    · intro q hq
      rcases List.mem_cons.1 hq with rfl | hq
      · rw [← inBoxB_spec, hout]; simp
      · exact h2 q hq
  | case3 l i p hp hin ih =>
    obtain ⟨hl, hget⟩ := List.getElem?_eq_some_iff.1 hp
    have e : dsTakeOutside bMin bMax l i = dsTakeOutside bMin bMax l (i + 1) := by
      rw [dsTakeOutside]
      split
      · rename_i hx; rw [hp] at hx; cases hx
      · rename_i q hx
        rw [hp] at hx
        cases hx
        rw [if_neg hin]
    rw [e]
    refine ih ?_
    intro q hq
    rw [List.take_add_one, hp] at hq
    rcases List.mem_append.1 hq with hq | hq
    · exact h q hq
    · have : q = p := by simpa using hq
      subst this
      rw [← inBoxB_spec]
      simpa using hin

/-- What `updateContainer` leaves and returns. -/
theorem dsUpdate_eq (bMin bMax : V3 Rat) (cells : List (List Particle)) (h7 : cells.length = 7) :
    dsUpdateContainer bMin bMax cells = ((dsTakeOutside bMin bMax ((cells.getD 0 []).filter fun p => p.own ≠ .dummy) 0).1,
      (dsTakeOutside bMin bMax ((cells.getD 0 []).filter fun p => p.own ≠ .dummy) 0).2 :: List.replicate 6 []) := by
  obtain ⟨c0, cs, rfl⟩ : ∃ c0 cs, cells = c0 :: cs := by
    cases cells with
    | nil => simp at h7
    | cons a b => exact ⟨a, b, rfl⟩
  have hlen : cs.length = 6 := by simpa using h7
  have hdel : dsDeleteHalo (c0 :: cs) = c0 :: List.replicate 6 [] := by
    unfold dsDeleteHalo
    rw [List.zipIdx_cons, List.map_cons]
    congr 1
    rw [List.eq_replicate_iff]
    refine ⟨by simp [hlen], ?_⟩
    intro b hb
    simp only [List.mem_map] at hb
    obtain ⟨e, he, rfl⟩ := hb
    have := List.le_snd_of_mem_zipIdx he
    rw [if_neg (by omega)]
  unfold dsUpdateContainer
  rw [hdel]
  rfl

theorem flatten_ds (l : List Particle) : (l :: List.replicate 6 []).flatten = l := by simp

/-- C55. `updateContainer` (with list rebuild) on a DirectSum container: the owned particles that left the box are returned, those inside
stay, nothing else stays, and nothing is lost or doubled. -/
theorem C55_update_exact (bMin bMax : V3 Rat) (cells : List (List Particle)) (h7 : cells.length = 7)
    (h0 : ∀ p ∈ cells.getD 0 [], p.own ≠ .halo) (hh : ∀ k, 0 < k → ∀ p ∈ cells.getD k [], p.own ≠ .owned) :
    let r := dsUpdateContainer bMin bMax cells
    (r.1 ++ r.2.flatten).Perm (cells.flatten.filter fun p => p.own = .owned) ∧
    (∀ p ∈ r.1, ¬ InBox p.pos bMin bMax) ∧ (∀ p ∈ r.2.flatten, InBox p.pos bMin bMax) := by
  intro r
  have er : r = _ := dsUpdate_eq bMin bMax cells h7
  obtain ⟨h1, h2, h3⟩ := dsTakeOutside_spec bMin bMax ((cells.getD 0 []).filter fun p => p.own ≠ .dummy) 0 (by simp)
  rw [er]
  have hc0 : (cells.getD 0 []).filter (fun p => p.own ≠ .dummy) = cells.flatten.filter fun p => p.own = .owned := by
    cases cells with
    | nil => simp at h7
    | cons c0 cs =>
      rw [List.flatten_cons, List.filter_append]
      have e1 : cs.flatten.filter (fun p => decide (p.own = .owned)) = [] := by
        rw [List.filter_eq_nil_iff]
        intro p hp
        obtain ⟨k, hk⟩ := mem_flatten_getD'.1 hp
        simpa using hh (k + 1) (by omega) p (by simpa using hk)
      rw [e1, List.append_nil]
      apply List.filter_congr
      intro p hp
      have := h0 p (by simpa using hp)
      cases ho : p.own <;> simp_all
  refine ⟨?_, h2, ?_⟩
  · rw [flatten_ds]
    rw [hc0] at h1 ⊢
    exact h1
  · rw [flatten_ds]; exact h3

/-- Afterwards every particle is in the cell of its present position. -/
theorem C55_update_sorts (bMin bMax : V3 Rat) (cells : List (List Particle)) (h7 : cells.length = 7) (hnd : cells.flatten.Nodup) :
    DSSorted bMin bMax Particle.pos (dsUpdateContainer bMin bMax cells).2 := by
  obtain ⟨h1, h2, h3⟩ := dsTakeOutside_spec bMin bMax ((cells.getD 0 []).filter fun p => p.own ≠ .dummy) 0 (by simp)
  rw [dsUpdate_eq bMin bMax cells h7]
  refine ⟨by simp, ?_, ?_⟩
  · rw [flatten_ds]
    have := h1.nodup_iff.2 ((nodup_getD hnd 0).filter _)
    exact (List.nodup_append.1 this).2.1
  · intro k p hp
    cases k with
    | zero => exact dsCellOf_zero.2 (h3 p (by simpa using hp))
    | succ k =>
      rw [List.getD_cons_succ, List.getD_eq_getElem?_getD, List.getElem?_replicate] at hp
      split at hp <;> simp at hp

/-- Copy `q` of a halo particle `p`: same identifier, closer than half the skin. -/
def IsCopy (skin : Rat) (p q : Particle) : Prop := q.id = p.id ∧ distSq q.pos p.pos < skin / 2 * (skin / 2)

theorem updateByIdAndPosition_spec (skin : Rat) (p : Particle) (l : List Particle) :
    match updateByIdAndPosition (skin / 2) p l with
    | none => ∀ q ∈ l, ¬ IsCopy skin p q
    | some l' => ∃ i q, l[i]? = some q ∧ IsCopy skin p q ∧ l' = l.set i p := by
  induction l with
  | nil => simp [updateByIdAndPosition]
  | cons q l ih =>
    unfold updateByIdAndPosition
    by_cases h : q.id = p.id ∧ distSq q.pos p.pos < skin / 2 * (skin / 2)
    · rw [if_pos h]
      exact ⟨0, q, rfl, h, rfl⟩
    · rw [if_neg h]
      cases hr : updateByIdAndPosition (skin / 2) p l with
      | none =>
        rw [hr] at ih
        intro x hx
        rcases List.mem_cons.1 hx with rfl | hx
        · exact h
        · exact ih x hx
      | some l' =>
        rw [hr] at ih
        obtain ⟨i, x, h1, h2, h3⟩ := ih
        exact ⟨i + 1, x, h1, h2, by rw [List.set_cons_succ, h3]⟩

theorem updateFirst_spec (skin : Rat) (p : Particle) (cells : List (List Particle)) (ks : List Nat) :
    match updateFirst (skin / 2) p cells ks with
    | none => ∀ k ∈ ks, ∀ q ∈ cells.getD k [], ¬ IsCopy skin p q
    | some cells' => ∃ k ∈ ks, ∃ i q, (cells.getD k [])[i]? = some q ∧ IsCopy skin p q ∧ cells' = cells.set k ((cells.getD k []).set i p) := by
  induction ks with
  | nil => simp [updateFirst]
  | cons k ks ih =>
    unfold updateFirst
    have h := updateByIdAndPosition_spec skin p (cells.getD k [])
    cases hr : updateByIdAndPosition (skin / 2) p (cells.getD k []) with
    | some l =>
      rw [hr] at h
      obtain ⟨i, q, h1, h2, h3⟩ := h
      exact ⟨k, by simp, i, q, h1, h2, by rw [h3]⟩
    | none =>
      rw [hr] at h
      dsimp only
      cases hu : updateFirst (skin / 2) p cells ks with
      | none =>
        rw [hu] at ih
        intro j hj
        rcases List.mem_cons.1 hj with rfl | hj
        · exact h
        · exact ih j hj
      | some c =>
        rw [hu] at ih
        obtain ⟨j, hj, hx⟩ := ih
        exact ⟨j, by simp [hj], hx⟩

/-- A halo particle is updated in place exactly if a copy of it is stored: then one copy, in a halo cell, is overwritten and nothing else
changes. `home q` is where the stored particle was put into its cell; the particle is still less than half the skin from there. -/
theorem C55_halo_copy_found (bMin bMax : V3 Rat) (skin : Rat) (hskin : 0 ≤ skin)
    (hw : skin ≤ bMax.x - bMin.x ∧ skin ≤ bMax.y - bMin.y ∧ skin ≤ bMax.z - bMin.z) (home : Particle → V3 Rat) (cells : List (List Particle))
    (hs : DSSorted bMin bMax home cells) (p : Particle)
    (hmove : ∀ k, 0 < k → ∀ q ∈ cells.getD k [], IsCopy skin p q → distSq p.pos (home q) < skin / 2 * (skin / 2)) :
    match dsUpdateHalo bMin bMax skin cells p with
    | none => ∀ k, 0 < k → ∀ q ∈ cells.getD k [], ¬ IsCopy skin p q
    | some cells' => ∃ k, 0 < k ∧ ∃ i q, (cells.getD k [])[i]? = some q ∧ IsCopy skin p q ∧ cells' = cells.set k ((cells.getD k []).set i p) := by
  have h := updateFirst_spec skin p cells (dsUpdateCells bMin bMax p.pos (skin / 2))
  unfold dsUpdateHalo
  dsimp only
  have hpos : ∀ k ∈ dsUpdateCells bMin bMax p.pos (skin / 2), 0 < k := by
    intro k hk
    unfold dsUpdateCells at hk
    rcases List.mem_append.1 hk with hk | hk
    · rcases List.mem_append.1 hk with hk | hk
      all_goals
        repeat' split at hk
        all_goals simp at hk
        all_goals omega
    · repeat' split at hk
      all_goals simp at hk
      all_goals omega
  have hfind : ∀ k, 0 < k → ∀ q ∈ cells.getD k [], distSq p.pos (home q) < skin / 2 * (skin / 2) → k ∈ dsUpdateCells bMin bMax p.pos (skin / 2) := by
    intro k hk q hq hd
    have hc := hs.home k q hq
    unfold distSq at hd
    have s1 := sq_nonneg (p.pos.x - (home q).x)
    have s2 := sq_nonneg (p.pos.y - (home q).y)
    have s3 := sq_nonneg (p.pos.z - (home q).z)
    have a1 : |p.pos.x - (home q).x| < skin / 2 := abs_lt_of_sq_lt_sq (by nlinarith) (by linarith)
    have a2 : |p.pos.y - (home q).y| < skin / 2 := abs_lt_of_sq_lt_sq (by nlinarith) (by linarith)
    have a3 : |p.pos.z - (home q).z| < skin / 2 := abs_lt_of_sq_lt_sq (by nlinarith) (by linarith)
    rw [abs_lt] at a1 a2 a3
    obtain ⟨w1, w2, w3⟩ := hw
    unfold dsUpdateCells
    unfold dsCellOf at hc
    split at hc
    · rw [if_pos (by linarith)]; simp [← hc]
    split at hc
    · rw [if_neg (by linarith), if_pos (by linarith)]; simp [← hc]
    split at hc
    · rw [if_pos (c := p.pos.y < _) (by linarith)]; simp [← hc]
    split at hc
    · rw [if_neg (c := p.pos.y < _) (by linarith), if_pos (c := p.pos.y ≥ _) (by linarith)]; simp [← hc]
    split at hc
    · rw [if_pos (c := p.pos.z < _) (by linarith)]; simp [← hc]
    split at hc
    · rw [if_neg (c := p.pos.z < _) (by linarith), if_pos (c := p.pos.z ≥ _) (by linarith)]; simp [← hc]
    · omega
  cases hr : updateFirst (skin / 2) p cells (dsUpdateCells bMin bMax p.pos (skin / 2)) with
  | none =>
    rw [hr] at h
    intro k hk q hq hcopy
    exact h k (hfind k hk q hq (hmove k hk q hq hcopy)) q hq hcopy
  | some cells' =>
    rw [hr] at h
    obtain ⟨k, hk, hx⟩ := h
    exact ⟨k, hpos k hk, hx⟩

/-! Non-vacuity: box `[0,10)³`; an owned particle left, a dummy and a halo particle are there. -/

private def xCells : List (List Particle) :=
  [[⟨1, ⟨1/2, 5, 5⟩, .owned⟩, ⟨2, ⟨10, 5, 5⟩, .owned⟩, ⟨4, ⟨1, 5, 5⟩, .dummy⟩], [⟨3, ⟨-1/4, 5, 5⟩, .halo⟩], [], [], [], [], []]

example : ((dsUpdateContainer ⟨0, 0, 0⟩ ⟨10, 10, 10⟩ xCells).1 ++ (dsUpdateContainer ⟨0, 0, 0⟩ ⟨10, 10, 10⟩ xCells).2.flatten).Perm
    [⟨1, ⟨1/2, 5, 5⟩, .owned⟩, ⟨2, ⟨10, 5, 5⟩, .owned⟩] := by
  refine (C55_update_exact ⟨0, 0, 0⟩ ⟨10, 10, 10⟩ xCells rfl (by decide) ?_).1.trans (List.Perm.of_eq (by decide +kernel))
  intro k hk p hp ho
  have h2 : p ∈ (xCells.drop 1).flatten := mem_flatten_getD'.2 ⟨k - 1, by
    obtain ⟨j, rfl⟩ : ∃ j, k = j + 1 := ⟨k - 1, by omega⟩
    simpa [xCells] using hp⟩
  have h3 : ∀ q ∈ (xCells.drop 1).flatten, q.own ≠ .owned := by decide +kernel
  exact h3 p h2 ho

example : dsUpdateHalo ⟨0, 0, 0⟩ ⟨10, 10, 10⟩ 1 xCells ⟨3, ⟨-1/8, 5, 5⟩, .halo⟩ = some (xCells.set 1 [⟨3, ⟨-1/8, 5, 5⟩, .halo⟩]) := by
  decide +kernel

end Verif
