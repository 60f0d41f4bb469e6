import Verif.Lemmas.IterLoop
/-! One pass of a user loop with deletions and updates. -/
namespace Verif

variable {P : Type}

theorem swapDelete_split (a : List P) (p : P) (b : List P) :
    swapDelete (a ++ p :: b) a.length = if h : b = [] then a else a ++ b.getLast h :: b.dropLast := by
  unfold swapDelete
  split
  · rename_i h; simp at h
  · rename_i z hz
    rw [if_pos (by simp)]
    by_cases hb : b = []
    · subst hb
      simp at hz; subst hz; simp
    · rw [dif_neg hb]
      have : z = b.getLast hb := by
        rw [List.getLast?_append, List.getLast?_cons, List.getLast?_eq_some_getLast hb] at hz
        simpa using hz.symm
      subst this
      rw [List.set_append_right _ _ (le_refl _)]
      simp only [Nat.sub_self, List.set_cons_zero]
      rw [List.dropLast_append_of_ne_nil (by simp), List.dropLast_cons_of_ne_nil hb]

theorem split_at {l : List P} {i : Nat} {p : P} (h : l[i]? = some p) : ∃ a b, l = a ++ p :: b ∧ a.length = i := by
  obtain ⟨hl, he⟩ := List.getElem?_eq_some_iff.1 h
  refine ⟨l.take i, l.drop (i + 1), ?_, by simp; omega⟩
  rw [← he, ← List.drop_eq_getElem_cons hl, List.take_append_drop]

theorem swapDelete_perm {l : List P} {i : Nat} {p : P} (h : l[i]? = some p) : (swapDelete l i ++ [p]).Perm l := by
  obtain ⟨a, b, rfl, rfl⟩ := split_at h
  rw [swapDelete_split]
  split
  · rename_i hb; subst hb; exact List.Perm.refl _
  · rename_i hb
    have : b.dropLast ++ [b.getLast hb] = b := List.dropLast_append_getLast hb
    rw [List.append_assoc]
    apply List.Perm.append_left
    conv_rhs => rw [← this]
    show (b.getLast hb :: (b.dropLast ++ [p])).Perm (p :: (b.dropLast ++ [b.getLast hb]))
    calc (b.getLast hb :: (b.dropLast ++ [p])).Perm (b.getLast hb :: p :: b.dropLast) :=
          List.Perm.cons _ (List.perm_append_singleton _ _)
      _ |>.Perm (p :: b.getLast hb :: b.dropLast) := List.Perm.swap _ _ _
      _ |>.Perm _ := List.Perm.cons _ (List.perm_append_singleton _ _).symm

theorem swapDelete_drop {l : List P} {i : Nat} {p : P} (h : l[i]? = some p) :
    ((swapDelete l i).drop i).Perm (l.drop (i + 1)) := by
  obtain ⟨a, b, rfl, rfl⟩ := split_at h
  rw [swapDelete_split]
  have e : (a ++ p :: b).drop (a.length + 1) = b := by
    rw [← List.drop_drop, List.drop_left]; rfl
  rw [e]
  split
  · rename_i hb; subst hb; simp
  · rename_i hb
    rw [List.drop_left]
    conv_rhs => rw [← List.dropLast_append_getLast hb]
    exact (List.perm_append_singleton _ _).symm

theorem swapDelete_length {l : List P} {i : Nat} {p : P} (h : l[i]? = some p) : (swapDelete l i).length + 1 = l.length := by
  have := (swapDelete_perm h).length_eq
  simpa using this

theorem set_perm {l : List P} {i : Nat} {p : P} (h : l[i]? = some p) (q : P) : (l.set i q ++ [p]).Perm (l ++ [q]) := by
  obtain ⟨a, b, rfl, rfl⟩ := split_at h
  rw [List.set_append_right _ _ (le_refl _)]
  simp only [Nat.sub_self, List.set_cons_zero, List.append_assoc]
  apply List.Perm.append_left
  show (q :: (b ++ [p])).Perm (p :: (b ++ [q]))
  calc (q :: (b ++ [p])).Perm (q :: p :: b) := List.Perm.cons _ (List.perm_append_singleton _ _)
    _ |>.Perm (p :: q :: b) := List.Perm.swap _ _ _
    _ |>.Perm _ := List.Perm.cons _ (List.perm_append_singleton _ _).symm

theorem getD_set_self' {cells : List (List P)} {c : Nat} {l : List P} (h : c < cells.length) : (cells.set c l).getD c [] = l := by
  rw [List.getD, List.getElem?_set_self h]; rfl

theorem getD_set_ne' {cells : List (List P)} {c d : Nat} {l : List P} (h : c ≠ d) : (cells.set c l).getD d [] = cells.getD d [] := by
  rw [List.getD, List.getElem?_set_ne h, ← List.getD]

theorem tailT_set {ful : P → Bool} {stride n : Nat} {cells : List (List P)} {c d : Nat} {l : List P} (h : c < d) :
    tailT ful stride n (cells.set c l) d = tailT ful stride n cells d := by
  induction d using tailT.induct stride n with
  | case1 d hd ih =>
    rw [tailT, dif_pos hd, ih (by omega), getD_set_ne' (by omega)]
    conv_rhs => rw [tailT, dif_pos hd]
  | case2 d hd => rw [tailT, dif_neg hd, tailT, dif_neg hd]

theorem restT_set {ful : P → Bool} {stride n : Nat} {cells : List (List P)} {c i : Nat} {l : List P} (hs : 0 < stride)
    (hc : c < cells.length) (hn : c < n) :
    restT ful stride n (cells.set c l) c i = ((l.drop i).filter ful).map (fun p => (c, p)) ++ tailT ful stride n cells (c + stride) := by
  rw [restT, if_pos ⟨hn, hs⟩, getD_set_self' hc, tailT_set (by omega)]

/-- The storage after the body has updated (`some`) or deleted (`none`) the current particle. -/
def stored (s : IterState P) (r : Option P) : IterState P :=
  let l := s.at s.inVecs s.ci
  let l' := match r with
    | some q => l.set s.pi q
    | none => swapDelete l s.pi
  if s.inVecs then { s with vecs := s.vecs.set s.ci l' } else { s with cells := s.cells.set s.ci l' }

theorem lt_of_getD {cells : List (List P)} {c i : Nat} {p : P} (h : (cells.getD c [])[i]? = some p) : c < cells.length := by
  by_contra hl
  rw [List.getD, List.getElem?_eq_none (show cells.length ≤ c by omega)] at h; simp at h

theorem stored_fields (s : IterState P) (r : Option P) :
    (stored s r).inVecs = s.inVecs ∧ (stored s r).ci = s.ci ∧ (stored s r).pi = s.pi ∧
    (stored s r).cells.length = s.cells.length ∧ (stored s r).vecs.length = s.vecs.length := by
  unfold stored
  cases hb : s.inVecs <;> cases r <;> simp [hb]

theorem stored_at {s : IterState P} {p : P} (hp : (s.at s.inVecs s.ci)[s.pi]? = some p) (r : Option P) (b : Bool) (k : Nat) :
    (stored s r).at b k = if b = s.inVecs ∧ k = s.ci then
      (match r with
       | some q => (s.at s.inVecs s.ci).set s.pi q
       | none => swapDelete (s.at s.inVecs s.ci) s.pi)
    else s.at b k := by
  unfold stored IterState.at at *
  cases hb : s.inVecs with
  | true =>
    rw [hb, if_pos rfl] at hp
    have hl := lt_of_getD hp
    cases b with
    | true =>
      by_cases hk : k = s.ci
      · subst hk; simp only [if_true, and_self]; rw [getD_set_self' hl]
      · simp only [if_true, hk, and_false, if_false]; rw [getD_set_ne' (fun h => hk h.symm)]
    | false => simp
  | false =>
    rw [hb, if_neg (by simp)] at hp
    have hl := lt_of_getD hp
    cases b with
    | false =>
      by_cases hk : k = s.ci
      · subst hk; simp only [Bool.false_eq_true, if_false, and_self, if_true]; rw [getD_set_self' hl]
      · simp only [Bool.false_eq_true, if_false, hk, and_false]; rw [getD_set_ne' (fun h => hk h.symm)]
    | true => simp

theorem stored_good {cfg : IterCfg P} {s : IterState P} {p : P} (hv : ValidAt cfg s p) (hg : GoodStore cfg s) (r : Option P) :
    GoodStore cfg (stored s r) := by
  obtain ⟨f1, f2, f3, f4, f5⟩ := stored_fields s r
  refine ⟨hg.stride, ?_, ?_, by rw [f5]; exact hg.vsmall⟩
  · intro c hc q hq
    have e : ∀ t : IterState P, t.cells.getD c [] = t.at false c := fun t => by simp [IterState.at]
    rw [e, stored_at hv.here] at hq
    by_cases hx : false = s.inVecs ∧ c = s.ci
    · exfalso
      obtain ⟨h1, h2⟩ := hx
      have h3 := hv.here
      rw [← h1, ← h2, ← e] at h3
      have := hg.irr c hc p (List.mem_of_getElem? h3)
      rw [hv.ful] at this; cases this
    · rw [if_neg hx, ← e] at hq
      exact hg.irr c hc q hq
  · intro b k
    rw [stored_at hv.here]
    split
    · have := hg.small s.inVecs s.ci
      cases r with
      | some q => simpa using this
      | none =>
        have h2 := swapDelete_length hv.here
        show (swapDelete (s.at s.inVecs s.ci) s.pi).length < idxMod
        omega
    · exact hg.small b k

/-- Remaining particles seen from the current cell, in any state. -/
theorem pending_stored {cfg : IterCfg P} {s : IterState P} {p : P} (hv : ValidAt cfg s p) (hg : GoodStore cfg s) (r : Option P)
    (j : Nat) :
    pending cfg { stored s r with pi := j } =
      ((((stored s r).at s.inVecs s.ci).drop j).filter cfg.ful).map (fun p => (s.inVecs, s.ci, p)) ++
      (if s.inVecs then (tailT cfg.ful cfg.stride s.vecs.length s.vecs (s.ci + cfg.stride)).map (fun e => (true, e))
       else (tailT cfg.ful cfg.stride (cfg.endC + 1) s.cells (s.ci + cfg.stride)).map (fun e => (false, e)) ++
        (tailT cfg.ful cfg.stride s.vecs.length s.vecs cfg.thread).map (fun e => (true, e))) := by
  have hp := hv.here
  unfold IterState.at at hp
  unfold pending stored IterState.at
  cases hb : s.inVecs with
  | true =>
    rw [hb, if_pos rfl] at hp
    have hl := lt_of_getD hp
    simp only [hb, if_true, List.length_set]
    rw [restT_set hg.stride hl hl, getD_set_self' hl]
    simp [Function.comp_def]
  | false =>
    rw [hb, if_neg (by simp)] at hp
    have hl := lt_of_getD hp
    simp only [hb, Bool.false_eq_true, if_false]
    rw [restT_set hg.stride hl (hv.hi hb), getD_set_self' hl]
    simp [Function.comp_def]

theorem pending_same {cfg : IterCfg P} {s : IterState P} {p : P} (hv : ValidAt cfg s p) (hg : GoodStore cfg s) (j : Nat) :
    pending cfg { s with pi := j } =
      (((s.at s.inVecs s.ci).drop j).filter cfg.ful).map (fun p => (s.inVecs, s.ci, p)) ++
      (if s.inVecs then (tailT cfg.ful cfg.stride s.vecs.length s.vecs (s.ci + cfg.stride)).map (fun e => (true, e))
       else (tailT cfg.ful cfg.stride (cfg.endC + 1) s.cells (s.ci + cfg.stride)).map (fun e => (false, e)) ++
        (tailT cfg.ful cfg.stride s.vecs.length s.vecs cfg.thread).map (fun e => (true, e))) := by
  have hp := hv.here
  unfold IterState.at at hp
  unfold pending IterState.at
  cases hb : s.inVecs with
  | true =>
    rw [hb, if_pos rfl] at hp
    have hl := lt_of_getD hp
    simp only [hb, if_true]
    rw [restT, if_pos ⟨hl, hg.stride⟩]
    simp [Function.comp_def]
  | false =>
    rw [hb, if_neg (by simp)] at hp
    have hl := lt_of_getD hp
    simp only [hb, Bool.false_eq_true, if_false]
    rw [restT, if_pos ⟨hv.hi hb, hg.stride⟩]
    simp [Function.comp_def]

end Verif
