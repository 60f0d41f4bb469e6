import Verif.Model.VerletListsPairwise
import Verif.Lemmas.VerletListsC08
import Verif.Props.C57
/-! Lemmas about the pairwise Verlet lists (C59). -/
namespace Verif
open Spec

theorem getD_modify {X : Type} (l : List X) (i k : Nat) (f : X → X) (d : X) :
    (l.modify i f).getD k d = if i = k ∧ k < l.length then f (l.getD k d) else l.getD k d := by
  rw [List.getD_eq_getElem?_getD, List.getElem?_modify, List.getD_eq_getElem?_getD]
  by_cases hk : k < l.length
  · rw [List.getElem?_eq_getElem hk]
    simp only [Option.map_eq_map, Option.map_some, Option.getD_some, hk, and_true]
  · rw [List.getElem?_eq_none (by omega), if_neg (by omega)]
    rfl

section
variable {P : Type} [DecidableEq P] {cells : List (List P)} {p q : P}

omit [DecidableEq P] in
/-- Adding a neighbour to the list of one particle. -/
theorem pushAt_spec {L : List (P × List P)} {i : Nat} {p : P} (q : P) (h : (L.map Prod.fst)[i]? = some p) :
    (L.modify i fun e => (e.1, e.2 ++ [q])).map Prod.fst = L.map Prod.fst ∧
    (vlcEntries (L.modify i fun e => (e.1, e.2 ++ [q]))).Perm (vlcEntries L ++ [(p, q)]) := by
  rw [List.getElem?_map] at h
  obtain ⟨e, he, rfl⟩ : ∃ e, L[i]? = some e ∧ e.1 = p := by
    cases hx : L[i]? with
    | none => rw [hx] at h; cases h
    | some e => rw [hx] at h; exact ⟨e, rfl, by simpa using h⟩
  obtain ⟨A, B, rfl, rfl⟩ := split_at he
  have : (A ++ e :: B).modify A.length (fun e => (e.1, e.2 ++ [q])) = A ++ (e.1, e.2 ++ [q]) :: B := by
    rw [List.modify_eq_take_drop]
    simp
  rw [this]
  constructor
  · simp
  · unfold vlcEntries
    simp only [List.flatMap_append, List.flatMap_cons, List.map_append, List.map_cons, List.map_nil, List.append_assoc]
    exact List.Perm.append_left _ (List.Perm.append_left _ List.perm_append_comm)

/-- The state of the lists after `es` have been entered. `nb k` are the cells that may be neighbours of cell `k`. -/
structure VLPInv (cells : List (List P)) (n : Nat) (nb : Nat → List Nat) (es : List (P × P)) (s : VLPLists P) : Prop where
  len : s.known.length = cells.length
  nodup : ∀ k, (s.known.getD k []).Nodup
  sub : ∀ k, ∀ c ∈ s.known.getD k [], c ∈ nb k
  slotsLen : s.slots.length = cells.length
  slotLen : ∀ k, k < cells.length → (s.slots.getD k []).length = n
  heads : ∀ k l, k < cells.length → l < n → (s.pairList k l).map Prod.fst = cells.getD k []
  entries : ∀ k l, (vlcEntries (s.pairList k l)).Perm
    (es.filter fun e : P × P => (particleToCell cells e.1).1 = k ∧ (s.known.getD k [])[l]? = some (particleToCell cells e.2).1)
  reg : ∀ e ∈ es, (particleToCell cells e.2).1 ∈ s.known.getD (particleToCell cells e.1).1 []

theorem vlpInv_empty (cells : List (List P)) (n : Nat) (nb : Nat → List Nat) : VLPInv cells n nb [] (vlpEmpty cells n) := by
  have hk : ∀ k, (vlpEmpty cells n).known.getD k [] = [] := by
    intro k
    unfold vlpEmpty
    rw [List.getD_eq_getElem?_getD, List.getElem?_map]
    cases cells[k]? <;> rfl
  have hs : ∀ k (h : k < cells.length), (vlpEmpty cells n).slots.getD k [] = List.replicate n ((cells.getD k []).map fun p => (p, [])) := by
    intro k h
    unfold vlpEmpty
    rw [List.getD_eq_getElem?_getD, List.getElem?_map, List.getD_eq_getElem?_getD, List.getElem?_eq_getElem h]
    rfl
  refine ⟨by simp [vlpEmpty], fun k => by rw [hk]; exact List.nodup_nil, (fun k c hc => by rw [hk] at hc; cases hc), by simp [vlpEmpty],
    (fun k h => by rw [hs k h]; simp), ?_, ?_, by simp⟩
  · intro k l h hl
    unfold VLPLists.pairList
    rw [hs k h, List.getD_eq_getElem?_getD, List.getElem?_replicate, if_pos hl]
    simp [Function.comp_def]
  · intro k l
    rw [List.filter_nil]
    refine List.Perm.of_eq ?_
    unfold VLPLists.pairList
    by_cases h : k < cells.length
    · rw [hs k h, List.getD_eq_getElem?_getD, List.getElem?_replicate]
      split
      · simp [vlcEntries, List.flatMap_map]
      · rfl
    · have : (vlpEmpty cells n).slots.getD k [] = [] := by
        rw [List.getD_eq_getElem?_getD, List.getElem?_eq_none (by simp [vlpEmpty]; omega)]; rfl
      rw [this]
      rfl

variable {n : Nat} {nb : Nat → List Nat} {es : List (P × P)} {s : VLPLists P}

omit [DecidableEq P] in
theorem vlpKnown {k c : Nat} {known : List (List Nat)} (hk : k < known.length) (hn : (known.getD k []).Nodup) :
    let known' := known.modify k fun l => if c ∈ l then l else l ++ [c]
    (∀ j, j ≠ k → known'.getD j [] = known.getD j []) ∧ (known'.getD k []).Nodup ∧ c ∈ known'.getD k [] ∧
    (∀ x, x ∈ known'.getD k [] ↔ x = c ∨ x ∈ known.getD k []) ∧
    ∀ (l : Nat) (x : Nat), x ∈ known.getD k [] → ((known'.getD k [])[l]? = some x ↔ (known.getD k [])[l]? = some x) := by
  intro known'
  have e1 : known'.getD k [] = if c ∈ known.getD k [] then known.getD k [] else known.getD k [] ++ [c] := by
    simp only [known']
    rw [getD_modify, if_pos ⟨rfl, hk⟩]
  refine ⟨fun j hj => ?_, ?_, ?_, ?_, ?_⟩
  · simp only [known']
    rw [getD_modify, if_neg (by omega)]
  all_goals rw [e1]
  all_goals generalize known.getD k [] = L at *
  · split
    · exact hn
    · rename_i h
      rw [List.nodup_append]
      exact ⟨hn, by simp, fun a ha b hb hab => by simp at hb; subst hb; subst hab; exact h ha⟩
  · split
    · assumption
    · simp
  · intro x
    split
    · rename_i h
      constructor
      · exact .inr
      · rintro (rfl | h') <;> assumption
    · simp [or_comm]
  · intro l x hx
    split
    · rfl
    · rename_i h
      by_cases hl : l < L.length
      · rw [List.getElem?_append_left hl]
      · rw [List.getElem?_append_right (by omega), List.getElem?_eq_none (l := L) (by omega)]
        constructor
        · intro h'
          have := List.mem_of_getElem? h'
          simp at this
          subst this
          exact absurd hx h
        · intro h'; cases h'

theorem vlpRegister_spec (hs : VLPInv cells n nb es s) {k c : Nat} (hk : k < cells.length) (hc : c ∈ nb k) (hn : (nb k).length ≤ n) :
    ∃ s' l, vlpRegister s k c = some (s', l) ∧ VLPInv cells n nb es s' ∧ (s'.known.getD k [])[l]? = some c := by
  obtain ⟨h1, h2, h3, h4, h5⟩ := vlpKnown (c := c) (by rw [hs.len]; exact hk) (hs.nodup k)
  unfold vlpRegister
  simp only
  set known' := s.known.modify k fun l => if c ∈ l then l else l ++ [c] with hknown'
  have hlt : (known'.getD k []).idxOf c < (known'.getD k []).length := List.idxOf_lt_length_of_mem h3
  have hle : (known'.getD k []).length ≤ n := by
    refine le_trans ?_ hn
    refine List.Subperm.length_le (List.subperm_of_subset h2 ?_)
    intro x hx
    rcases (h4 x).1 hx with rfl | hx
    · exact hc
    · exact hs.sub k x hx
  rw [hs.slotLen k hk, if_pos (by omega)]
  refine ⟨_, _, rfl, ⟨?_, ?_, ?_, hs.slotsLen, hs.slotLen, hs.heads, ?_, ?_⟩, ?_⟩
  · simp only [hknown', List.length_modify]; exact hs.len
  · intro j
    by_cases hj : j = k
    · subst hj; exact h2
    · simp only; rw [h1 j hj]; exact hs.nodup j
  · intro j x hx
    by_cases hj : j = k
    · subst hj
      rcases (h4 x).1 hx with rfl | hx
      · exact hc
      · exact hs.sub _ x hx
    · simp only at hx; rw [h1 j hj] at hx; exact hs.sub j x hx
  · intro j l
    refine (hs.entries j l).trans (List.Perm.of_eq ?_)
    apply List.filter_congr
    intro e he
    rw [decide_eq_decide]
    constructor
    · rintro ⟨rfl, g⟩
      refine ⟨rfl, ?_⟩
      by_cases hj : (particleToCell cells e.1).1 = k
      · simp only; rw [hj] at g ⊢; rw [h5 l _ (by have := hs.reg e he; rwa [hj] at this)]; exact g
      · simp only; rw [h1 _ hj]; exact g
    · rintro ⟨rfl, g⟩
      refine ⟨rfl, ?_⟩
      by_cases hj : (particleToCell cells e.1).1 = k
      · simp only at g; rw [hj] at g ⊢; rw [h5 l _ (by have := hs.reg e he; rwa [hj] at this)] at g; exact g
      · simp only at g; rw [h1 _ hj] at g; exact g
  · intro e he
    by_cases hj : (particleToCell cells e.1).1 = k
    · simp only; rw [hj, h4]; right; have := hs.reg e he; rwa [hj] at this
    · simp only; rw [h1 _ hj]; exact hs.reg e he
  · simp only
    rw [List.getElem?_eq_getElem hlt]
    simp

theorem vlpPush_spec (hs : VLPInv cells n nb es s) (hp : p ∈ cells.flatten)
    (hc : (particleToCell cells q).1 ∈ nb (particleToCell cells p).1) (hn : (nb (particleToCell cells p).1).length ≤ n) :
    ∃ s', vlpPush cells s p q = some s' ∧ VLPInv cells n nb (es ++ [(p, q)]) s' := by
  obtain ⟨cell, g1, g2⟩ := particleToCell_spec hp
  have hk : (particleToCell cells p).1 < cells.length := by
    by_contra h
    rw [List.getElem?_eq_none (by omega)] at g1
    cases g1
  obtain ⟨s', l, h1, h2, h3⟩ := vlpRegister_spec hs hk hc hn
  have hget : ∀ k l', l' ≠ l ∨ k ≠ (particleToCell cells p).1 →
      VLPLists.pairList ⟨s'.known, s'.slots.modify (particleToCell cells p).1 fun pairs => pairs.modify l fun L =>
        L.modify (particleToCell cells p).2 fun e => (e.1, e.2 ++ [q])⟩ k l' = s'.pairList k l' := by
    intro k l' hne
    unfold VLPLists.pairList
    simp only
    rw [getD_modify]
    split
    · rw [getD_modify, if_neg (by omega)]
    · rfl
  have hl : l < n := by
    have h4 : l < (s'.known.getD (particleToCell cells p).1 []).length := by
      by_contra h
      rw [List.getElem?_eq_none (by omega)] at h3
      cases h3
    have h5 := List.Subperm.length_le (List.subperm_of_subset (h2.nodup _) fun x hx => h2.sub (particleToCell cells p).1 x hx)
    omega
  have hgot : VLPLists.pairList ⟨s'.known, s'.slots.modify (particleToCell cells p).1 fun pairs => pairs.modify l fun L =>
        L.modify (particleToCell cells p).2 fun e => (e.1, e.2 ++ [q])⟩ (particleToCell cells p).1 l =
      (s'.pairList (particleToCell cells p).1 l).modify (particleToCell cells p).2 fun e => (e.1, e.2 ++ [q]) := by
    unfold VLPLists.pairList
    simp only
    rw [getD_modify, if_pos ⟨rfl, by rw [h2.slotsLen]; exact hk⟩, getD_modify, if_pos ⟨rfl, by rw [h2.slotLen _ hk]; exact hl⟩]
  have hhead := h2.heads _ l hk hl
  have hcell : ((s'.pairList (particleToCell cells p).1 l).map Prod.fst)[(particleToCell cells p).2]? = some p := by
    rw [hhead, List.getD_eq_getElem?_getD, g1]; exact g2
  obtain ⟨q1, q2⟩ := pushAt_spec q hcell
  refine ⟨⟨s'.known, s'.slots.modify (particleToCell cells p).1 fun pairs => pairs.modify l fun L =>
      L.modify (particleToCell cells p).2 fun e => (e.1, e.2 ++ [q])⟩,
    by unfold vlpPush; simp only [h1, Option.bind_eq_bind, Option.bind_some]; rfl, ⟨h2.len, h2.nodup, h2.sub, ?_, ?_, ?_, ?_, ?_⟩⟩
  · simp only [List.length_modify]; exact h2.slotsLen
  · intro k hk'
    simp only
    rw [getD_modify]
    split
    · rw [List.length_modify]; exact h2.slotLen k hk'
    · exact h2.slotLen k hk'
  · intro k l' hk' hl'
    by_cases hh : l' = l ∧ k = (particleToCell cells p).1
    · obtain ⟨rfl, rfl⟩ := hh
      rw [hgot, q1]; exact hhead
    · rw [hget k l' (by tauto)]; exact h2.heads k l' hk' hl'
  · intro k l'
    rw [List.filter_append]
    by_cases hh : l' = l ∧ k = (particleToCell cells p).1
    · obtain ⟨rfl, rfl⟩ := hh
      rw [hgot]
      refine q2.trans (List.Perm.append (h2.entries _ _) (List.Perm.of_eq ?_))
      rw [List.filter_cons_of_pos (by simpa using h3)]
      rfl
    · rw [hget k l' (by tauto)]
      have : List.filter (fun e : P × P => decide ((particleToCell cells e.1).1 = k ∧ (s'.known.getD k [])[l']? =
          some (particleToCell cells e.2).1)) [(p, q)] = [] := by
        rw [List.filter_cons_of_neg]
        · rfl
        · simp only [decide_eq_true_eq]
          rintro ⟨rfl, g⟩
          apply hh
          refine ⟨?_, rfl⟩
          have hnd := h2.nodup (particleToCell cells p).1
          obtain ⟨a1, a2⟩ := List.getElem?_eq_some_iff.1 g
          obtain ⟨b1, b2⟩ := List.getElem?_eq_some_iff.1 h3
          exact (List.Nodup.getElem_inj_iff hnd).1 (a2.trans b2.symm)
      rw [this, List.append_nil]
      exact h2.entries k l'
  · intro e he
    rcases List.mem_append.1 he with he | he
    · exact h2.reg e he
    · simp only [List.mem_singleton] at he
      subst he
      exact List.mem_of_getElem? h3

variable {pos : P → V3 Rat} {own : P → Ownership} {il : Rat} {soa : Bool}

theorem vlpGenerate_fold (calls : List (PairCall P)) (hp : ∀ c ∈ calls, c.p ∈ cells.flatten ∧
      (particleToCell cells c.q).1 ∈ nb (particleToCell cells c.p).1 ∧ (nb (particleToCell cells c.p).1).length ≤ n) :
    ∀ es s, VLPInv cells n nb es s → ∃ s', calls.foldlM (vlpGenerate pos own il soa cells) s = some s' ∧
      VLPInv cells n nb (es ++ (calls.filter fun c => vlcIsNeighbour pos own il soa c.p c.q).map fun c => (c.p, c.q)) s' := by
  induction calls with
  | nil => intro es s hs; exact ⟨s, rfl, by simpa using hs⟩
  | cons c calls ih =>
    intro es s hs
    have ih := ih fun x hx => hp x (List.mem_cons_of_mem _ hx)
    obtain ⟨k1, k2, k3⟩ := hp c List.mem_cons_self
    rw [List.foldlM_cons]
    unfold vlpGenerate
    by_cases hn : vlcIsNeighbour pos own il soa c.p c.q = true
    · rw [if_pos hn, List.filter_cons_of_pos (by exact hn)]
      obtain ⟨s₁, h1, h2⟩ := vlpPush_spec hs k1 k2 k3
      obtain ⟨s', h3, h4⟩ := ih _ _ h2
      refine ⟨s', ?_, ?_⟩
      · rw [h1]; exact h3
      · rw [List.map_cons]; simpa using h4
    · rw [if_neg hn, List.filter_cons_of_neg (by exact hn)]
      exact ih _ _ hs

theorem vlpLookups_fold (ks : List (Nat × Nat)) (hk : ∀ k ∈ ks, k.1 < cells.length ∧ k.2 ∈ nb k.1 ∧ (nb k.1).length ≤ n) :
    ∀ s, VLPInv cells n nb es s → ∃ s', ks.foldlM (fun s k => (vlpRegister s k.1 k.2).map Prod.fst) s = some s' ∧ VLPInv cells n nb es s' := by
  induction ks with
  | nil => intro s hs; exact ⟨s, rfl, hs⟩
  | cons k ks ih =>
    intro s hs
    obtain ⟨k1, k2, k3⟩ := hk k List.mem_cons_self
    obtain ⟨s₁, l, h1, h2, -⟩ := vlpRegister_spec hs k1 k2 k3
    obtain ⟨s', h3, h4⟩ := ih (fun x hx => hk x (List.mem_cons_of_mem _ hx)) s₁ h2
    refine ⟨s', ?_, h4⟩
    rw [List.foldlM_cons, h1]
    exact h3

theorem vlpStep_fold {f : CellFunctorCfg P} {pcells : List (PCell P)} (ops : List CellOp)
    (hl : ∀ op ∈ ops, ∀ k ∈ vlpLookups f pcells op, k.1 < cells.length ∧ k.2 ∈ nb k.1 ∧ (nb k.1).length ≤ n)
    (hp : ∀ op ∈ ops, ∀ c ∈ f.op pcells op, c.p ∈ cells.flatten ∧
      (particleToCell cells c.q).1 ∈ nb (particleToCell cells c.p).1 ∧ (nb (particleToCell cells c.p).1).length ≤ n) :
    ∀ es s, VLPInv cells n nb es s → ∃ s', ops.foldlM (vlpStep pos own il f pcells cells) s = some s' ∧
      VLPInv cells n nb (es ++ ((ops.flatMap (f.op pcells)).filter fun c => vlcIsNeighbour pos own il f.soa c.p c.q).map fun c => (c.p, c.q)) s' := by
  induction ops with
  | nil => intro es s hs; exact ⟨s, rfl, by simpa using hs⟩
  | cons op ops ih =>
    intro es s hs
    obtain ⟨s₁, h1, h2⟩ := vlpLookups_fold _ (hl op List.mem_cons_self) s hs
    obtain ⟨s₂, h3, h4⟩ := vlpGenerate_fold (pos := pos) (own := own) (il := il) (soa := f.soa) _ (hp op List.mem_cons_self) _ _ h2
    obtain ⟨s', h5, h6⟩ := ih (fun x hx => hl x (List.mem_cons_of_mem _ hx)) (fun x hx => hp x (List.mem_cons_of_mem _ hx)) _ _ h4
    refine ⟨s', ?_, ?_⟩
    · rw [List.foldlM_cons]
      unfold vlpStep
      simp only [h1, h3, Option.bind_eq_bind, Option.bind_some]
      exact h5
    · rw [List.flatMap_cons, List.filter_append, List.map_append, ← List.append_assoc]
      exact h6

/-! What is read from the lists. -/

theorem vlpFind_entries (hs : VLPInv cells n nb es s) (k c : Nat) :
    (vlcEntries (s.find k c)).Perm (es.filter fun e : P × P => (particleToCell cells e.1).1 = k ∧ (particleToCell cells e.2).1 = c) := by
  unfold VLPLists.find
  split
  · rename_i hc
    refine (hs.entries _ _).trans (List.Perm.of_eq ?_)
    apply List.filter_congr
    intro e he
    rw [decide_eq_decide]
    have hlt := List.idxOf_lt_length_of_mem hc
    rw [List.getElem?_eq_getElem hlt]
    simp only [List.getElem_idxOf, Option.some.injEq]
    constructor <;> rintro ⟨a, b⟩ <;> exact ⟨a, b.symm⟩
  · rename_i hc
    refine List.Perm.of_eq ?_
    symm
    change _ = []
    rw [List.filter_eq_nil_iff]
    intro e he
    simp only [decide_eq_true_eq]
    rintro ⟨rfl, rfl⟩
    exact hc (hs.reg e he)

theorem vlpAll_entries (hs : VLPInv cells n nb es s) {k : Nat} (hk : k < cells.length) (hn : (nb k).length ≤ n) :
    ((s.slots.getD k []).flatMap vlcEntries).Perm (es.filter fun e : P × P => (particleToCell cells e.1).1 = k) := by
  have e1 : (s.slots.getD k []).flatMap vlcEntries = (List.range n).flatMap fun l => vlcEntries (s.pairList k l) := by
    have : s.slots.getD k [] = (List.range n).map fun l => s.pairList k l := by
      apply List.ext_getElem
      · rw [hs.slotLen k hk]; simp
      · intro i h1 h2
        rw [List.getElem_map, List.getElem_range]
        unfold VLPLists.pairList
        generalize s.slots.getD k [] = L at h1
        rw [List.getD_eq_getElem?_getD, List.getElem?_eq_getElem h1]
        rfl
    rw [this, List.flatMap_map]
  rw [e1]
  have hle : (s.known.getD k []).length ≤ n := le_trans (List.Subperm.length_le (List.subperm_of_subset (hs.nodup _) fun x hx => hs.sub k x hx)) hn
  have hperm := flatMap_keys_perm (es.filter fun e : P × P => (particleToCell cells e.1).1 = k)
    (fun e => (s.known.getD k []).idxOf (particleToCell cells e.2).1) (List.range n) List.nodup_range
  refine (List.Perm.flatMap_left _ ?_).trans (hperm.trans (List.Perm.of_eq ?_))
  · intro l _
    refine (hs.entries k l).trans (List.Perm.of_eq ?_)
    rw [List.filter_filter]
    apply List.filter_congr
    intro e he
    rw [← Bool.decide_and, decide_eq_decide]
    constructor
    · rintro ⟨rfl, g⟩
      refine ⟨?_, rfl⟩
      obtain ⟨a1, a2⟩ := List.getElem?_eq_some_iff.1 g
      rw [← a2]
      exact (hs.nodup _).idxOf_getElem l a1
    · rintro ⟨g, rfl⟩
      refine ⟨rfl, ?_⟩
      have := List.idxOf_lt_length_of_mem (hs.reg e he)
      subst g
      rw [List.getElem?_eq_getElem this]
      simp
  · rw [List.filter_filter]
    apply List.filter_congr
    intro e he
    rw [← Bool.decide_and, decide_eq_decide]
    constructor
    · exact fun h => h.2
    · rintro rfl
      refine ⟨?_, rfl⟩
      have := List.idxOf_lt_length_of_mem (hs.reg e he)
      rw [List.mem_range]
      omega

theorem vlpListAoS_eq (newton3 : Bool) (l : List (P × List P)) :
    vlpListAoS newton3 l = (vlcEntries l).map fun e => ⟨e.1, e.2, newton3⟩ := by
  have := vlcProcessAoS_eq newton3 [l] 0
  exact this

theorem vlpList_eq (soa newton3 : Bool) {l : List (P × List P)} (h : ∀ e ∈ vlcEntries l, e.1 ∈ cells.flatten ∧ e.2 ∈ cells.flatten) :
    vlpList soa newton3 cells.flatten cells l = (vlcEntries l).map fun e => ⟨e.1, e.2, newton3⟩ := by
  unfold vlpList
  split
  · rw [← vlpListAoS_eq]
    exact vlcProcessSoA_eq (lists := [l]) (k := 0) newton3 h
  · exact vlpListAoS_eq _ _

variable {f : CellFunctorCfg P}

/-- The particles of a call of a cell functor call are in its two cells; with Newton 3 in this order. -/
theorem op_two_cells (hs : f.Sorts pos) {cells : List (PCell P)} {op : CellOp} {c : PairCall P} (h : c ∈ f.op cells op) :
    (c.p ∈ (cellAt cells op.first).particles ∧ c.q ∈ (cellAt cells op.second).particles) ∨
    (f.newton3 = false ∧ c.p ∈ (cellAt cells op.second).particles ∧ c.q ∈ (cellAt cells op.first).particles) := by
  by_cases hn : f.newton3 = true
  · exact .inl (op_cells hs hn h)
  have hn : f.newton3 = false := by simpa using hn
  cases op with
  | self i =>
    simp only [CellFunctorCfg.op, CellOp.first, CellOp.second] at h ⊢
    unfold CellFunctorCfg.cell processCell soaSingle at h
    rw [processCellAoS_eq] at h
    left
    split at h
    · split at h
      · simp at h
      · split at h
        · simp at h
        · obtain ⟨t, ht, h⟩ := List.mem_flatMap.1 h
          have hm := mem_pairLoop ht
          unfold interactCross at h
          rw [if_neg (by simp [hn])] at h
          simp at h
          rcases h with rfl | rfl
          · exact ⟨hm.1, hm.2⟩
          · exact ⟨hm.2, hm.1⟩
    · split at h
      · simp at h
      · split at h
        · simp at h
        · obtain ⟨t, ht, h⟩ := List.mem_flatMap.1 h
          have hm := mem_cellPairs (hs _ _) ht
          unfold interactParticles at h
          rw [if_neg (by simp [hn])] at h
          simp only [List.mem_append] at h
          rcases h with h | h
          · split at h
            · simp at h; subst h; exact ⟨hm.1, hm.2⟩
            · simp at h
          · split at h
            · simp at h; subst h; exact ⟨hm.2, hm.1⟩
            · simp at h
  | pair i j dir =>
    simp only [CellFunctorCfg.op, CellOp.first, CellOp.second] at h ⊢
    unfold CellFunctorCfg.cellPair processCellPair at h
    rw [processCellPairAoS_eq] at h
    split at h
    · split at h
      · simp at h
      · split at h
        · simp at h
        · rw [List.mem_append] at h
          rcases h with h | h
          · obtain ⟨t, ht, rfl⟩ := List.mem_map.1 h
            exact .inl (mem_crossLoop ht)
          · split at h
            · obtain ⟨t, ht, rfl⟩ := List.mem_map.1 h
              exact .inr ⟨hn, mem_crossLoop ht⟩
            · cases h
    · split at h
      · simp at h
      · split at h
        · simp at h
        · obtain ⟨t, ht, h⟩ := List.mem_flatMap.1 h
          have := mem_crossPairs (hs _ _) (hs _ _) ht
          unfold interactCross at h
          rw [if_neg (by simp [hn])] at h
          simp only [List.mem_cons] at h
          rcases h with rfl | h
          · exact .inl this
          · split at h
            · simp at h; subst h; exact .inr ⟨hn, this.2, this.1⟩
            · simp at h

theorem vlpLookups_mem {cells : List (PCell P)} {op : CellOp} {k : Nat × Nat} (h : k ∈ vlpLookups f cells op) :
    k = (op.first.toNat, op.second.toNat) ∨ (f.newton3 = false ∧ k = (op.second.toNat, op.first.toNat)) := by
  cases op with
  | self i =>
    simp only [vlpLookups] at h
    split at h
    · left; exact List.mem_singleton.1 h
    · cases h
  | pair i j dir =>
    simp only [vlpLookups] at h
    split at h
    · rcases List.mem_cons.1 h with h | h
      · exact .inl h
      · split at h
        · rename_i hn
          right
          exact ⟨hn.1, List.mem_singleton.1 h⟩
        · cases h
    · cases h

end

/-! ### The neighbouring cells -/

/-- The offsets of the cells that can be neighbours of a cell, when cells are at least as long as the interaction length. -/
def vlpOffsets (newton3 : Bool) : List (Int × Int × Int) :=
  ((forInt (-1) 1).flatMap fun x => (forInt (-1) 1).flatMap fun y => (forInt (-1) 1).map fun z => (x, y, z)).filter fun t =>
    !newton3 || decide (0 < t.2.2 ∨ (t.2.2 = 0 ∧ (0 < t.2.1 ∨ (t.2.1 = 0 ∧ 0 ≤ t.1))))

theorem vlpOffsets_length (newton3 : Bool) : (vlpOffsets newton3).length = if newton3 then 14 else 27 := by
  cases newton3 <;> decide +kernel

theorem mem_vlpOffsets {newton3 : Bool} {x y z : Int} : (x, y, z) ∈ vlpOffsets newton3 ↔
    (-1 ≤ x ∧ x ≤ 1) ∧ (-1 ≤ y ∧ y ≤ 1) ∧ (-1 ≤ z ∧ z ≤ 1) ∧ (newton3 = true → (0 < z ∨ (z = 0 ∧ (0 < y ∨ (y = 0 ∧ 0 ≤ x))))) := by
  unfold vlpOffsets
  rw [List.mem_filter]
  simp only [List.mem_flatMap, List.mem_map, mem_forInt, Prod.mk.injEq]
  constructor
  · rintro ⟨⟨x', hx, y', hy, z', hz, rfl, rfl, rfl⟩, h⟩
    refine ⟨hx, hy, hz, fun hn => ?_⟩
    rw [hn] at h
    simpa using h
  · rintro ⟨hx, hy, hz, h⟩
    refine ⟨⟨x, hx, y, hy, z, hz, rfl, rfl, rfl⟩, ?_⟩
    cases newton3
    · rfl
    · simpa using h rfl

/-- The cells that can be neighbours of cell number `k`. -/
def vlpNb (dims : V3 Nat) (newton3 : Bool) (k : Nat) : List Nat :=
  (vlpOffsets newton3).map fun t => threeToOneD (shift (oneToThreeD k dims) t) dims

section
variable {bMin bMax : V3 Rat} {il csf : Rat}

/-- With a cell size factor of at least one, cells are at least as long as the interaction length. -/
theorem cell_ge_il (hbox : GoodBox bMin bMax il csf) (hcsf : 1 ≤ csf) :
    let cl := (CellBlock.rebuild id bMin bMax il csf).cellLength; il ≤ cl.x ∧ il ≤ cl.y ∧ il ≤ cl.z := by
  have one : cellsPerInteractionLength id csf = 1 := by unfold cellsPerInteractionLength; rw [if_pos hcsf]
  have h1 := cellLength_ge hbox.hx hbox.ilPos hbox.csfPos hbox.wx
  have h2 := cellLength_ge hbox.hy hbox.ilPos hbox.csfPos hbox.wy
  have h3 := cellLength_ge hbox.hz hbox.ilPos hbox.csfPos hbox.wz
  rw [one] at h1 h2 h3
  simp only [Nat.cast_one, one_mul] at h1 h2 h3
  exact ⟨h1, h2, h3⟩

theorem overlap_one_of_csf (hbox : GoodBox bMin bMax il csf) (hcsf : 1 ≤ csf) :
    overlapOf il (CellBlock.rebuild id bMin bMax il csf).cellLength = ⟨1, 1, 1⟩ := by
  have one : cellsPerInteractionLength id csf = 1 := by unfold cellsPerInteractionLength; rw [if_pos hcsf]
  obtain ⟨h1, h2, h3⟩ := hbox.overlap_le
  obtain ⟨o1, o2, o3⟩ := (c18Dims_of hbox).pos.ov
  rw [one] at h1 h2 h3
  generalize overlapOf il (CellBlock.rebuild id bMin bMax il csf).cellLength = o at *
  rcases o with ⟨a, b, c⟩
  simp only [V3.mk.injEq] at *
  omega

theorem vlpSlots_eq (hbox : GoodBox bMin bMax il csf) (hcsf : 1 ≤ csf) (newton3 : Bool) :
    vlpSlots (CellBlock.rebuild id bMin bMax il csf).cellLength il newton3 = (vlpOffsets newton3).length := by
  rw [vlpOffsets_length]
  unfold vlpSlots
  rw [overlap_one_of_csf hbox hcsf]
  have hil := hbox.ilPos
  generalize (CellBlock.rebuild id bMin bMax il csf).cellLength = cl
  have hz : ∀ (x : Int) (l : Rat), x ∈ forInt (-1) 1 → ((max 0 ((x.natAbs : Int) - 1) : Int) : Rat) * l = 0 := by
    intro x l hx
    rw [mem_forInt] at hx
    have : max 0 ((x.natAbs : Int) - 1) = 0 := by omega
    rw [this]; simp
  simp only
  have e : ((forInt (-1) 1).flatMap fun x => (forInt (-1) 1).flatMap fun y =>
      (forInt (-1) 1).filter fun z =>
        let v : V3 Rat := ⟨((max 0 ((x.natAbs : Int) - 1) : Int) : Rat) * cl.x, ((max 0 ((y.natAbs : Int) - 1) : Int) : Rat) * cl.y,
          ((max 0 ((z.natAbs : Int) - 1) : Int) : Rat) * cl.z⟩
        decide (v.dot v ≤ il * il)) = (forInt (-1) 1).flatMap fun x => (forInt (-1) 1).flatMap fun y => (forInt (-1) 1) := by
    apply List.flatMap_congr
    intro x hx
    apply List.flatMap_congr
    intro y hy
    rw [List.filter_eq_self]
    intro z hz'
    simp only [hz x _ hx, hz y _ hy, hz z _ hz', V3.dot, mul_zero, add_zero, decide_eq_true_eq]
    positivity
  simp only at e
  rw [e]
  have : ((forInt (-1) 1).flatMap fun x => (forInt (-1) 1).flatMap fun y => (forInt (-1) 1)).length = 27 := by decide +kernel
  rw [this]
  cases newton3 <;> rfl

variable {P : Type} [DecidableEq P] {pos₀ : P → V3 Rat} {own₀ : P → Ownership} {cells : List (List P)} {f : CellFunctorCfg P}

theorem vlp_nb (hbox : GoodBox bMin bMax il csf) (hcsf : 1 ≤ csf) {op : CellOp}
    (hop : op ∈ (LCTraversal.c18.ops (CellBlock.rebuild id bMin bMax il csf).dims (CellBlock.rebuild id bMin bMax il csf).cellLength il).flatten.flatten)
    (newton3 : Bool) :
    let dims := (CellBlock.rebuild id bMin bMax il csf).dims
    0 ≤ op.first ∧ op.first ≤ op.second ∧ op.second < numCells dims ∧ op.second.toNat ∈ vlpNb dims newton3 op.first.toNat ∧
    (newton3 = false → op.first.toNat ∈ vlpNb dims newton3 op.second.toNat) := by
  intro dims
  have h := c18Dims_of hbox
  have hov := overlap_one_of_csf hbox hcsf
  obtain ⟨d, hd⟩ := (c18_coded h).eq
  simp only [LCTraversal.ops] at hop
  rw [hd] at hop
  obtain ⟨⟨b, x, y, z⟩, hq, rfl⟩ := List.mem_map.1 hop
  have hgf := (c18_coded h).gridf _ hq
  have hgg := (c18_coded h).gridg _ hq
  have hdim := hbox.dims_ge
  have one : cellsPerInteractionLength id csf = 1 := by unfold cellsPerInteractionLength; rw [if_pos hcsf]
  rw [one] at hdim
  rw [mem_c18Q h, hov] at hq
  obtain ⟨hb, hx, hy, hz, h0, bx, by', -⟩ := hq
  have e1 : ∀ (i j : Int) (d : V3 Rat), (mkOp i j d).first = i := by intro i j d; unfold mkOp; split <;> rfl
  have e2 : ∀ (i j : Int) (d : V3 Rat), (mkOp i j d).second = j := by
    intro i j d
    unfold mkOp
    split
    · rename_i hh; exact hh
    · rfl
  rw [e1, e2]
  have hfl : (threeToOneD b dims : Int) + threeToOneDInt x y z dims.toInt = threeToOneD (shift b (x, y, z)) dims :=
    flat_shift (by omega) (by omega) (by simp only at hz; omega)
  refine ⟨by omega, by rw [← hfl]; exact Int.le_add_of_nonneg_right h0, ?_, ?_, ?_⟩
  · exact_mod_cast flat_lt hgg
  · simp only [Int.toNat_natCast, vlpNb]
    rw [oneToThreeD_threeToOneD hgf, List.mem_map]
    refine ⟨(x, y, z), ?_, rfl⟩
    rw [mem_vlpOffsets]
    simp only at hx hy hz
    refine ⟨hx, hy, by omega, fun _ => ?_⟩
    unfold threeToOneDInt V3.toInt at h0
    simp only at h0
    have d0 : 3 ≤ dims.x ∧ 3 ≤ dims.y := ⟨hdim.1, hdim.2.1⟩
    have h0 : 0 ≤ (z * (dims.y : Int) + y) * (dims.x : Int) + x := h0
    by_contra hcon
    have hz0 : z = 0 := by omega
    subst hz0
    have hy0 : y = 0 ∨ y = -1 := by omega
    rcases hy0 with rfl | rfl
    · simp at h0; omega
    · have hh : x + (-1) * (dims.x : Int) < 0 := by omega
      apply absurd h0
      rw [not_le]
      calc _ = x + (-1) * (dims.x : Int) := by ring
        _ < 0 := hh
  · intro hn
    simp only [Int.toNat_natCast, vlpNb]
    rw [oneToThreeD_threeToOneD hgg, List.mem_map]
    refine ⟨(-x, -y, -z), ?_, ?_⟩
    · rw [mem_vlpOffsets]
      simp only at hx hy hz
      refine ⟨by omega, by omega, by omega, fun h => ?_⟩
      rw [hn] at h; cases h
    · congr 1
      rcases b with ⟨b1, b2, b3⟩
      simp only [shift, V3.mk.injEq] at *
      omega

/-- Building the lists succeeds, and they hold the neighbours among the calls of the building traversal. -/
theorem vlpBuild_spec (hbox : GoodBox bMin bMax il csf) (hcsf : 1 ≤ csf) (hf : FunctorFor .c18 pos₀ il f)
    (hs : SortedIn (CellBlock.rebuild id bMin bMax il csf) pos₀ cells) :
    ∃ s, vlpBuild pos₀ own₀ (CellBlock.rebuild id bMin bMax il csf) il f cells = some s ∧
      VLPInv cells (vlpOffsets f.newton3).length (vlpNb (CellBlock.rebuild id bMin bMax il csf).dims f.newton3)
        (((f.run (lcCells (CellBlock.rebuild id bMin bMax il csf) cells) (LCTraversal.c18.ops (CellBlock.rebuild id bMin bMax il csf).dims
          (CellBlock.rebuild id bMin bMax il csf).cellLength il)).filter fun c => vlcIsNeighbour pos₀ own₀ il f.soa c.p c.q).map
          fun c => (c.p, c.q)) s := by
  unfold vlpBuild CellFunctorCfg.run
  rw [vlpSlots_eq hbox hcsf]
  have hnb := fun op hop => vlp_nb hbox hcsf (op := op) hop f.newton3
  have hlen : ∀ k, (vlpNb (CellBlock.rebuild id bMin bMax il csf).dims f.newton3 k).length ≤ (vlpOffsets f.newton3).length := by
    intro k; unfold vlpNb; simp
  set blk := CellBlock.rebuild id bMin bMax il csf with hblk
  have hptc : ∀ (i : Int) p, 0 ≤ i → p ∈ (cellAt (lcCells blk cells) i).particles → p ∈ cells.flatten ∧ (particleToCell cells p).1 = i.toNat := by
    intro i p hi hp
    rw [(cellAt_lcCells i).1] at hp
    have hm : p ∈ cells.flatten := mem_flatten_getD'.2 ⟨_, hp⟩
    refine ⟨hm, ?_⟩
    rw [particleToCell_home hs hm]
    exact hs.home _ p hp
  have := vlpStep_fold (pos := pos₀) (own := own₀) (il := il) (f := f) (pcells := lcCells blk cells) (cells := cells)
    (n := (vlpOffsets f.newton3).length) (nb := vlpNb blk.dims f.newton3)
    (LCTraversal.c18.ops blk.dims blk.cellLength il).flatten.flatten ?_ ?_ [] _ (vlpInv_empty cells _ _)
  · simpa using this
  · intro op hop k hk
    obtain ⟨h1, h2, h3, h4, h5⟩ := hnb op hop
    have hlt : ∀ i : Int, 0 ≤ i → i < numCells blk.dims → i.toNat < cells.length := by
      intro i h h'; rw [hs.length]; omega
    rcases vlpLookups_mem hk with rfl | ⟨hn, rfl⟩
    · exact ⟨hlt _ h1 (by omega), h4, hlen _⟩
    · exact ⟨hlt _ (by omega) h3, h5 hn, hlen _⟩
  · intro op hop c hc
    obtain ⟨h1, h2, h3, h4, h5⟩ := hnb op hop
    rcases op_two_cells hf.sorts hc with ⟨a, b⟩ | ⟨hn, a, b⟩
    · obtain ⟨a1, a2⟩ := hptc _ _ h1 a
      obtain ⟨b1, b2⟩ := hptc _ _ (by omega) b
      rw [a2, b2]
      exact ⟨a1, h4, hlen _⟩
    · obtain ⟨a1, a2⟩ := hptc _ _ (by omega) a
      obtain ⟨b1, b2⟩ := hptc _ _ (by omega) b
      rw [a2, b2]
      exact ⟨a1, h5 hn, hlen _⟩

end
end Verif
