import Verif.Lemmas.IterDelete
import Verif.Lemmas.LCRegion
import Verif.Lemmas.ExampleStore
/-!
# C33 — Deleting while iterating is safe
-/
namespace Verif
open Spec

theorem obeys_of_follows {P : Type} {body : List P → P → Option P} {vs : List (Visit P)} (h : Follows body [] vs) : Obeys body vs := by
  have key : ∀ (pre : List (Visit P)) (seen : List P) v post, Follows body seen (pre ++ v :: post) →
      v.after = body (seen ++ pre.map Visit.before) v.before := by
    intro pre
    induction pre with
    | nil => intro seen v post h; simpa using h.1
    | cons w pre ih =>
      intro seen v post h
      have := ih (seen ++ [w.before]) v post h.2
      simpa using this
  rintro pre v post rfl
  simpa using key pre [] v post h

/-- What one thread that runs alone has to visit. -/
theorem allVisits_one {b : CellBlock} {behavior T t : Nat} (hone : Sequential behavior ∨ (T = 1 ∧ t = 0))
    (hb : NoDummyOrAll behavior) {cells vecs : List (List Particle)} (hs : LCStorage b cells vecs) :
    lcIterCfg b behavior T t = lcIterCfg b behavior 1 0 ∧
    ((allVisits (lcIterCfg b behavior 1 0) cells vecs).map fun v => v.2.2).Perm
      ((cells.flatten ++ vecs.flatten).filter fun p => wanted behavior p.own) := by
  have hthread : iterThread behavior 0 = 0 := by unfold iterThread; split <;> rfl
  constructor
  · rcases hone with h | ⟨rfl, rfl⟩
    · have hns : behavior &&& ibForceSequential ≠ 0 := (seq_bit behavior).2 h
      unfold lcIterCfg iterThread iterStride
      simp only [hns, ne_eq, not_false_eq_true, if_true]
    · rfl
  · have hmain := allVisits_threads (fun t' => { lcIterCfg b behavior 1 0 with thread := t' }) 1 Nat.one_pos
      (fun p => wanted behavior p.own)
      (if behavior &&& ibHalo = 0 then b.firstOwned else 0) (if behavior &&& ibHalo = 0 then b.lastOwned else b.numCells - 1)
      (fun t => by funext p; exact fulfills_wanted behavior p.own)
      (fun t => by show iterStride behavior 1 = 1; unfold iterStride; split <;> rfl)
      (fun t => rfl) (fun t => rfl) (fun t => rfl)
      cells vecs
      (by
        rw [hs.len]
        have := hs.pos
        have h2 : b.lastOwned ≤ b.numCells - 1 := by unfold CellBlock.lastOwned CellBlock.numCells; omega
        split <;> omega)
      (by
        intro k hk hkr p hp
        by_cases hh : behavior &&& ibHalo = 0
        · simp only [hh, if_true] at hkr
          refine not_wanted_of_mismatch hs hb ?_ hp
          unfold cellMatchesBehavior
          have : b.cellCanContainHalo k = true := by
            unfold CellBlock.cellCanContainHalo
            rw [if_pos hkr]
          rw [this, hh]; simp
        · simp only [hh, if_false] at hkr
          rw [hs.len] at hk
          omega)
    have e : ({ lcIterCfg b behavior 1 0 with thread := 0 } : IterCfg Particle) = lcIterCfg b behavior 1 0 := by
      simp only [lcIterCfg, hthread]
    rw [List.range_one, List.flatMap_singleton, e] at hmain
    exact hmain

/-- Whatever the loop body deletes (its decisions may depend on everything visited so far), the loop ends. It visits each
matching particle at least once: the visits begin with `ws`, one visit of each matching particle, followed by further visits
`us`. Everything the body asked for, and nothing else, happens to the stored particles. -/
theorem C33_ends_and_applies_body (b : CellBlock) (behavior T t : Nat) (hone : Sequential behavior ∨ (T = 1 ∧ t = 0))
    (hb : NoDummyOrAll behavior) (cells vecs : List (List Particle)) (hs : LCStorage b cells vecs)
    (body : List Particle → Particle → Option Particle) :
    ∃ ws us cells' vecs', LoopEnds (lcIterCfg b behavior T t) body cells vecs (ws ++ us) cells' vecs' ∧
      (ws.map Visit.before).Perm ((cells.flatten ++ vecs.flatten).filter fun p => wanted behavior p.own) ∧
      (us = [] ∨ vecs = [] ∧ ∃ v, ws.getLast? = some v ∧ v.after = none) ∧
      Obeys body (ws ++ us) ∧ (∀ v ∈ ws ++ us, wanted behavior v.before.own) ∧
      (cells'.flatten ++ vecs'.flatten ++ (ws ++ us).map Visit.before).Perm
        (cells.flatten ++ vecs.flatten ++ (ws ++ us).filterMap Visit.after) := by
  obtain ⟨hcfg, hperm⟩ := allVisits_one hone hb hs
  rw [hcfg]
  obtain ⟨ws, us, t', m0, h1, h2, h3, h4, hf, h5⟩ := loop_always_ends _ body _ [] cells vecs rfl (lc_goodStorage hs hb 1 0 Nat.one_pos)
  refine ⟨ws, us, t'.cells, t'.vecs, ⟨m0, fun m hm => ⟨t', h1 m hm, rfl, rfl⟩⟩, ?_, h3, obeys_of_follows h4, ?_, h5⟩
  · have := h2.map (fun v : Bool × Nat × Particle => v.2.2)
    rw [List.map_map] at this
    exact this.trans hperm
  · intro v hv
    have := hf v hv
    rw [← fulfills_wanted]; exact this

/-- With additional vectors to iterate (some insertion buffer is not empty), or if the particle visited last is not deleted,
every matching particle is visited exactly once and exactly the requested particles are removed or replaced. Missing for the
full property: loops that delete the particle they visit last while all buffers are empty (`C33_violated_revisit`). -/
theorem C33_exactly_once_partial (b : CellBlock) (behavior T t : Nat) (hone : Sequential behavior ∨ (T = 1 ∧ t = 0))
    (hb : NoDummyOrAll behavior) (cells vecs : List (List Particle)) (hs : LCStorage b cells vecs)
    (body : List Particle → Particle → Option Particle)
    (hbody : vecs ≠ [] ∨ ∀ seen p, (∀ q ∈ cells.flatten, wanted behavior q.own → q ∈ seen ++ [p]) → body seen p ≠ none) :
    ∃ vs cells' vecs', LoopEnds (lcIterCfg b behavior T t) body cells vecs vs cells' vecs' ∧
      (vs.map Visit.before).Perm ((cells.flatten ++ vecs.flatten).filter fun p => wanted behavior p.own) ∧ Obeys body vs ∧
      (cells'.flatten ++ vecs'.flatten).Perm
        (((cells.flatten ++ vecs.flatten).filter fun p => !wanted behavior p.own) ++ vs.filterMap Visit.after) := by
  obtain ⟨ws, us, c', v', h1, h2, h3, h4, -, h5⟩ := C33_ends_and_applies_body b behavior T t hone hb cells vecs hs body
  have hus : us = [] := by
    rcases h3 with h3 | ⟨hv, v, hl, hd⟩
    · exact h3
    · exfalso
      rcases hbody with h | h
      · exact h hv
      · have hne : ws ≠ [] := by rintro rfl; simp at hl
        rw [List.getLast?_eq_some_getLast hne] at hl
        have hsplit : ws ++ us = ws.dropLast ++ v :: us := by
          rw [← Option.some.inj hl, List.append_cons, List.dropLast_append_getLast]
        have := h4 _ _ _ hsplit
        rw [hd] at this
        refine h _ _ ?_ this.symm
        intro q hq hw
        have hmem : q ∈ ws.map Visit.before := h2.mem_iff.2 (by
          rw [List.mem_filter, List.mem_append]; exact ⟨Or.inl hq, hw⟩)
        rw [← List.dropLast_append_getLast hne, List.map_append] at hmem
        rw [← Option.some.inj hl]
        simpa using hmem
  subst hus
  simp only [List.append_nil] at *
  refine ⟨ws, c', v', h1, h2, h4, ?_⟩
  have hsp := List.filter_append_perm (fun p : Particle => wanted behavior p.own) (cells.flatten ++ vecs.flatten)
  have h6 : (c'.flatten ++ v'.flatten ++ ws.map Visit.before).Perm
      ((((cells.flatten ++ vecs.flatten).filter fun p => !wanted behavior p.own) ++ ws.filterMap Visit.after) ++ ws.map Visit.before) := by
    refine h5.trans ((hsp.symm.append_right _).trans ?_)
    rw [List.append_assoc]
    refine List.perm_append_comm.trans ?_
    exact List.Perm.append_left _ h2.symm
  exact (List.perm_append_right_iff _).1 h6

/-- A loop that deletes the matching particles satisfying `d` always ends, visits no deleted particle again, and leaves
exactly the other particles. -/
theorem C33_delete_by_predicate (b : CellBlock) (behavior T t : Nat) (hone : Sequential behavior ∨ (T = 1 ∧ t = 0))
    (hb : NoDummyOrAll behavior) (cells vecs : List (List Particle)) (hs : LCStorage b cells vecs) (d : Particle → Bool) :
    ∃ vs cells' vecs', LoopEnds (lcIterCfg b behavior T t) (deleteIf d) cells vecs vs cells' vecs' ∧
      (cells'.flatten ++ vecs'.flatten).Perm
        ((cells.flatten ++ vecs.flatten).filter fun p => !(wanted behavior p.own && d p)) := by
  obtain ⟨ws, us, c', v', h1, h2, -, h4, hw, h5⟩ := C33_ends_and_applies_body b behavior T t hone hb cells vecs hs (deleteIf d)
  refine ⟨ws ++ us, c', v', h1, ?_⟩
  set init := cells.flatten ++ vecs.flatten with hinit
  set fin := c'.flatten ++ v'.flatten with hfin
  set B := (ws ++ us).map Visit.before with hB
  have hafter : (ws ++ us).filterMap Visit.after = B.filter fun p => !d p := by
    have key : ∀ l : List (Visit Particle), (∀ v ∈ l, v.after = if d v.before then none else some v.before) →
        l.filterMap Visit.after = (l.map Visit.before).filter fun p => !d p := by
      intro l
      induction l with
      | nil => intro _; rfl
      | cons v l ih =>
        intro h
        rw [List.map_cons, List.filter_cons, ← ih fun w hw => h w (List.mem_cons_of_mem _ hw), List.filterMap_cons,
          h v (by simp)]
        cases d v.before <;> rfl
    apply key
    intro v hv
    obtain ⟨pre, post, hpp⟩ := List.append_of_mem hv
    exact h4 pre v post hpp
  rw [hafter] at h5
  -- cancel the surviving visits
  have hsp := List.filter_append_perm d B
  have h6 : (fin ++ B.filter d).Perm init := by
    have : (fin ++ (B.filter d ++ B.filter fun p => !d p)).Perm (init ++ B.filter fun p => !d p) :=
      (hsp.append_left _).trans h5
    rw [← List.append_assoc] at this
    exact (List.perm_append_right_iff _).1 this
  have hBw : ∀ p ∈ B, wanted behavior p.own := by
    intro p hp
    obtain ⟨v, hv, rfl⟩ := List.mem_map.1 hp
    exact hw v hv
  -- everything to be deleted was visited in the first pass, so nothing of it is left
  have hD : ((ws.map Visit.before).filter d).Perm (init.filter fun p => wanted behavior p.own && d p) := by
    have := h2.filter d
    rw [List.filter_filter] at this
    have e : (fun p : Particle => d p && wanted behavior p.own) = fun p => wanted behavior p.own && d p := by
      funext p; rw [Bool.and_comm]
    rwa [e] at this
  have h7 := h6.filter fun p => wanted behavior p.own && d p
  have h8 := h6.filter fun p => !(wanted behavior p.own && d p)
  rw [List.filter_append] at h7 h8
  have hBd : (B.filter d).filter (fun p => wanted behavior p.own && d p) = B.filter d := by
    rw [List.filter_eq_self]
    intro p hp
    rw [List.mem_filter] at hp
    rw [hBw p hp.1, hp.2]; rfl
  have hBn : (B.filter d).filter (fun p => !(wanted behavior p.own && d p)) = [] := by
    rw [List.filter_eq_nil_iff]
    intro p hp
    rw [List.mem_filter] at hp
    rw [hBw p hp.1, hp.2]; simp
  rw [hBd] at h7
  rw [hBn, List.append_nil] at h8
  have hlen := h7.length_eq
  have hlen2 := hD.length_eq
  have hBsplit : B.filter d = (ws.map Visit.before).filter d ++ (us.map Visit.before).filter d := by
    rw [hB, List.map_append, List.filter_append]
  rw [hBsplit, List.length_append, List.length_append] at hlen
  have hnil : fin.filter (fun p => wanted behavior p.own && d p) = [] := List.eq_nil_of_length_eq_zero (by omega)
  have hfs := List.filter_append_perm (fun p : Particle => wanted behavior p.own && d p) fin
  rw [hnil, List.nil_append] at hfs
  exact hfs.symm.trans h8

/-- A loop body that deletes particle 2. -/
def dropTwo : List Particle → Particle → Option Particle := deleteIf fun p => p.id == 2

/-- The property fails if all insertion buffers are empty and the particle visited last is deleted: of two particles in the
same cell the second is deleted, and then the first one is visited again. -/
theorem C33_violated_revisit :
    LCStorage exBlock (oneCell 13 [exOwned, exOwned2]) [] ∧
    LoopEnds (lcIterCfg exBlock ibOwned 1 0) dropTwo (oneCell 13 [exOwned, exOwned2]) []
      [⟨false, 13, exOwned, some exOwned⟩, ⟨false, 13, exOwned2, none⟩, ⟨false, 13, exOwned, some exOwned⟩]
      (oneCell 13 [exOwned]) [] := by
  refine ⟨oneCell_storage (by decide) _ (by simp) (by simp) (by simp [exOwned, exOwned2]), ⟨4, fun m hm => ?_⟩⟩
  set cfg := lcIterCfg exBlock ibOwned 1 0 with hcfg
  obtain ⟨d1, d2, d3, d4⟩ := exBlock_dim
  have hf : exBlock.firstOwned = 13 := by unfold CellBlock.firstOwned; rw [d1, d2, d4]
  have hl : exBlock.lastOwned = 13 := by unfold CellBlock.lastOwned; rw [hf, d1, d2, d3]
  have hs : cfg.startC = 13 := by
    show (if ibOwned &&& ibHalo = 0 then exBlock.firstOwned else 0) = 13; rw [if_pos (by decide), hf]
  have he : cfg.endC = 13 := by
    show (if ibOwned &&& ibHalo = 0 then exBlock.lastOwned else exBlock.numCells - 1) = 13; rw [if_pos (by decide), hl]
  have ht : cfg.thread = 0 := rfl
  have hst : cfg.stride = 1 := rfl
  have hf1 : cfg.ful exOwned = true := by decide
  have hf2 : cfg.ful exOwned2 = true := by decide
  have hg0 : ∀ ps, getParticleImpl cfg (oneCell 13 (exOwned :: ps)) 0 0 = some (13, 0, exOwned) := by
    intro ps
    unfold getParticleImpl
    have hlen : (oneCell 13 (exOwned :: ps)).length = 27 := by simp [oneCell]
    have hget : (oneCell 13 (exOwned :: ps)).getD 13 [] = exOwned :: ps := by rw [oneCell_get (by decide)]; rfl
    simp only [and_self, if_true, hs, ht, Nat.add_zero, hlen, hget, List.getElem?_cons_zero, hf1, he]
    rfl
  have hb0 : ∀ ps, iterBegin cfg (oneCell 13 (exOwned :: ps)) [] = ⟨oneCell 13 (exOwned :: ps), [], false, 13, 0, some exOwned⟩ := by
    intro ps
    unfold iterBegin fetch
    simp only [Bool.false_eq_true, if_false, hg0]
  have hg1 : getParticleImpl cfg (oneCell 13 [exOwned, exOwned2]) 13 1 = some (13, 1, exOwned2) := by
    unfold getParticleImpl
    have hlen : (oneCell 13 [exOwned, exOwned2]).length = 27 := by simp [oneCell]
    have hget : (oneCell 13 [exOwned, exOwned2]).getD 13 [] = [exOwned, exOwned2] := by rw [oneCell_get (by decide)]; rfl
    have hne : ¬ (13 = 0 ∧ 1 = 0) := by decide
    simp only [hlen, if_neg hne, hget, List.getElem?_cons_succ, List.getElem?_cons_zero, hf2, he, if_true]
    rfl
  have hnone : ∀ i, getParticleImpl cfg (oneCell 13 [exOwned]) 13 (i + 1) = none := by
    intro i
    unfold getParticleImpl
    have hlen : (oneCell 13 [exOwned]).length = 27 := by simp [oneCell]
    have hget : (oneCell 13 [exOwned]).getD 13 [] = [exOwned] := by rw [oneCell_get (by decide)]; rfl
    have hne : ¬ (13 = 0 ∧ i + 1 = 0) := by omega
    have : advanceIteratorIndices cfg (oneCell 13 [exOwned]) 13 (i + 1) = none := by
      unfold advanceIteratorIndices
      rw [advanceLoop, if_pos (Or.inr (by rw [oneCell_get (by decide)]; simp)), dif_pos (Or.inl (by rw [he, hst]; decide))]
    simp only [hlen, if_neg hne, hget, this, List.getElem?_cons_succ, List.getElem?_nil]
    rfl
  have hset1 : (oneCell 13 [exOwned, exOwned2]).set 13 ((oneCell 13 [exOwned, exOwned2]).getD 13 []) = oneCell 13 [exOwned, exOwned2] := rfl
  have hset2 : (oneCell 13 [exOwned]).set 13 ((oneCell 13 [exOwned]).getD 13 []) = oneCell 13 [exOwned] := rfl
  have hset3 : (oneCell 13 [exOwned, exOwned2]).set 13 [exOwned] = oneCell 13 [exOwned] := rfl
  obtain ⟨k, rfl⟩ : ∃ k, m = k + 4 := ⟨m - 4, by omega⟩
  refine ⟨⟨oneCell 13 [exOwned], [], false, 0, 0, none⟩, ?_, rfl, rfl⟩
  have hd1 : ∀ seen, dropTwo seen exOwned = some exOwned := fun _ => rfl
  have hd2 : ∀ seen, dropTwo seen exOwned2 = none := fun _ => rfl
  -- first particle
  have n1 : iterNext cfg (afterBody cfg ⟨oneCell 13 [exOwned, exOwned2], [], false, 13, 0, some exOwned⟩ (some exOwned)) =
      ⟨oneCell 13 [exOwned, exOwned2], [], false, 13, 1, some exOwned2⟩ := by
    have : afterBody cfg ⟨oneCell 13 [exOwned, exOwned2], [], false, 13, 0, some exOwned⟩ (some exOwned) =
        ⟨oneCell 13 [exOwned, exOwned2], [], false, 13, 0, some exOwned⟩ := rfl
    rw [this]
    unfold iterNext fetch
    simp [hg1, idxMod]
  -- deletion of the second particle
  have n2 : iterNext cfg (afterBody cfg ⟨oneCell 13 [exOwned, exOwned2], [], false, 13, 1, some exOwned2⟩ none) =
      ⟨oneCell 13 [exOwned], [], false, 13, 0, some exOwned⟩ := by
    have hnx : iterNext cfg ⟨oneCell 13 [exOwned], [], false, 13, 1, some exOwned2⟩ =
        ⟨oneCell 13 [exOwned], [], false, 0, 0, none⟩ := by
      unfold iterNext fetch
      have := hnone 1
      simp [idxMod, this]
    have hdel : afterBody cfg ⟨oneCell 13 [exOwned, exOwned2], [], false, 13, 1, some exOwned2⟩ none =
        ⟨oneCell 13 [exOwned], [], false, 0, idxMod - 1, none⟩ := by
      show deleteCurrent cfg _ = _
      unfold deleteCurrent
      have hsw : swapDelete ((oneCell 13 [exOwned, exOwned2]).getD 13 []) 1 = [exOwned] := rfl
      simp only [Bool.false_eq_true, if_false, hsw, hset3]
      rw [if_pos (by simp), hnx]
      simp [idxMod]
    rw [hdel]
    unfold iterNext fetch
    have h0 : (idxMod - 1 + 1) % idxMod = 0 := by decide
    simp only [Bool.false_eq_true, if_false, h0, hg0]
  -- the first particle again, and the end
  have n3 : iterNext cfg (afterBody cfg ⟨oneCell 13 [exOwned], [], false, 13, 0, some exOwned⟩ (some exOwned)) =
      ⟨oneCell 13 [exOwned], [], false, 0, 0, none⟩ := by
    have : afterBody cfg ⟨oneCell 13 [exOwned], [], false, 13, 0, some exOwned⟩ (some exOwned) =
        ⟨oneCell 13 [exOwned], [], false, 13, 0, some exOwned⟩ := rfl
    rw [this]
    unfold iterNext fetch
    have := hnone 0
    simp [idxMod, this]
  rw [hb0]
  simp only [iterLoop, hd1, hd2, n1, n2, n3, Option.map_some]

/-- The hypotheses can be met, with a loop that does delete the particle it visits last. -/
example : ∃ vs cells' vecs', LoopEnds (lcIterCfg exBlock ibOwned 1 0) dropTwo exCells exVecs vs cells' vecs' ∧
      (vs.map Visit.before).Perm ([exOwned, exOwned2] ++ exVecs.flatten) ∧ Obeys dropTwo vs ∧
      (cells'.flatten ++ vecs'.flatten).Perm ([exHalo, exDummy] ++ vs.filterMap Visit.after) :=
  C33_exactly_once_partial exBlock ibOwned 1 0 (Or.inr ⟨rfl, rfl⟩) (by unfold NoDummyOrAll; decide) exCells exVecs
    (exStorage exVecs (by decide) (by decide)) dropTwo (Or.inl (by decide))

example : ∃ vs cells' vecs', LoopEnds (lcIterCfg exBlock ibOwned 1 0) dropTwo exCells [] vs cells' vecs' ∧
      (cells'.flatten ++ vecs'.flatten).Perm [exHalo, exOwned, exDummy] :=
  C33_delete_by_predicate exBlock ibOwned 1 0 (Or.inr ⟨rfl, rfl⟩) (by unfold NoDummyOrAll; decide) exCells []
    (exStorage [] (by decide) (by decide)) _

end Verif
