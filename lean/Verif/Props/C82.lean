import Verif.Lemmas.LCReferencesHistory
import Verif.Props.C51
import Verif.Props.C25
/-!
# C82 — the container linkedCellsReferences keeps the particles it is given

`linkedCellsReferences` stores the particles in one vector; its cells hold pointers. Whatever sequence of operations is carried
out, no pointer may dangle, the owned particles that can be reached are exactly those that were added and not deleted,
`updateContainer` hands back exactly the owned particles outside the box, and every force calculation sees every pair.

The full property is violated twice (`C82_violated_delete_all`, `C82_violated_add_throws`). It holds for histories without
`deleteAllParticles` in which particles are added only while no owned particle is outside the box (`C82_history_partial`);
without the second restriction an operation may throw, but never does anything wrong (`C82_throws_or_right_partial`).
-/
namespace Verif
open Spec

variable {c : LHParams}

theorem lrInit_inv (h : LHParamsOk c) : LRInv c (LRState.init c) ∧ ∀ k, (LRState.init c).look.getD k [] = [] := by
  have hcells : ∀ l ∈ (LRState.init c).cells, l = [] := fun l hl => (List.mem_replicate.1 hl).2
  have hflat : (LRState.init c).cells.flatten = [] := List.flatten_eq_nil_iff.2 hcells
  have _ := h
  refine ⟨⟨rfl, rfl, le_refl _, by simp [LRState.init], ?_, by rw [hflat]; simp, ?_⟩, ?_⟩
  · intro l hl q hq; rw [hcells l hl] at hq; cases hq
  · intro i hi; simp [LRState.init] at hi
  · intro k
    rw [look_getD]
    have : (LRState.init c).cells.getD k [] = [] := by
      rw [List.getD]
      cases hk : (LRState.init c).cells[k]? with
      | none => rfl
      | some l => exact hcells l (List.mem_of_getElem? hk)
    rw [this]; rfl

theorem lrInit_flat (h : LHParamsOk c) : (LRState.init c).look.flatten = [] := by
  rw [List.eq_nil_iff_forall_not_mem]
  intro p hp
  obtain ⟨k, hk⟩ := mem_flatten_getD'.1 hp
  rw [(lrInit_inv h).2 k] at hk; cases hk

private theorem from_start (h : LHParamsOk c) {grow : Nat → Nat} (hg : ∀ n, n < grow n) {extra : List Particle → LRAction → Prop}
    (he : ∀ S a, extra S a → a ≠ .deleteAll) (as : List LRAction) (hn : as.length < 2 ^ 64)
    (hok : LRHistoryOk c grow extra 0 (LRState.init c) [] as) :
    (lrRun c grow (LRState.init c) as = .throws ∧ ¬ ∀ S a, extra S a → a.adds → ∀ p ∈ S, InBox p.pos c.bMin c.bMax) ∨
    ∃ st outs, lrRun c grow (LRState.init c) as = .ok (st, outs) ∧ LRInv c st ∧
      (st.look.flatten.filter isOwned).Perm (lrWantedRun c grow (LRState.init c) [] as).1 ∧
      SameOutputs outs (lrWantedRun c grow (LRState.init c) [] as).2 ∧
      ∀ k, ∀ p ∈ st.look.getD k [], PlaceOk c (as.foldl (fun m a => LRAction.moves m a) 0) k p :=
  lrRun_spec h hg he as (lrInit_inv h).1 (m := 0) (S := []) (fun k p hp => by rw [(lrInit_inv h).2 k] at hp; cases hp)
    (by rw [lrInit_flat h]; exact List.Perm.refl _) (by simpa [LRState.init] using hn) hok

/-- Every history in which particles are added only while all owned particles are inside the box (and without
`deleteAllParticles`) runs to its end, without exception, endless loop or dangling pointer; the owned particles that can be reached
are then the intended ones, and every `updateContainer` has handed back the intended particles. -/
theorem C82_history_partial (h : LHParamsOk c) {grow : Nat → Nat} (hg : ∀ n, n < grow n) (as : List LRAction)
    (hn : as.length < 2 ^ 64) (hok : LRHistoryOk c grow (calm c) 0 (LRState.init c) [] as) :
    ∃ st outs own, lrRun c grow (LRState.init c) as = .ok (st, outs) ∧ lrOwned st = some own ∧
      own.Perm (lrWantedRun c grow (LRState.init c) [] as).1 ∧
      List.Forall₂ List.Perm outs (lrWantedRun c grow (LRState.init c) [] as).2 := by
  rcases from_start h hg (extra := calm c) (fun S a hx => hx.1) as hn hok with ⟨-, h2⟩ | ⟨st, outs, h1, h2, h3, h4, -⟩
  · exact absurd (fun S a (hx : calm c S a) => hx.2) h2
  · exact ⟨st, outs, _, h1, lrOwned_eq h2, h3, h4⟩

/-- Without the restriction on when particles are added, a history may end with an exception; if it does not, the result is the
intended one. -/
theorem C82_throws_or_right_partial (h : LHParamsOk c) {grow : Nat → Nat} (hg : ∀ n, n < grow n) (as : List LRAction)
    (hn : as.length < 2 ^ 64) (hok : LRHistoryOk c grow noDeleteAll 0 (LRState.init c) [] as) :
    lrRun c grow (LRState.init c) as = .throws ∨
    ∃ st outs own, lrRun c grow (LRState.init c) as = .ok (st, outs) ∧ lrOwned st = some own ∧
      own.Perm (lrWantedRun c grow (LRState.init c) [] as).1 ∧
      List.Forall₂ List.Perm outs (lrWantedRun c grow (LRState.init c) [] as).2 := by
  rcases from_start h hg (extra := noDeleteAll) (fun S a hx => hx) as hn hok with ⟨h1, -⟩ | ⟨st, outs, h1, h2, h3, h4, -⟩
  · exact Or.inl h1
  · exact Or.inr ⟨st, outs, _, h1, lrOwned_eq h2, h3, h4⟩

/-- When the buffers of the `LogicHandler` are emptied while all stored particles are where they belong, the container gets exactly the particles inside the box that
were not deleted, as owned ones, and those outside are handed back as they are. -/
theorem C82_flush_partial (h : LHParamsOk c) {grow : Nat → Nat} (hg : ∀ n, n < grow n) (ps : List Particle) {st : LRState} (hi : LRInv c st) {m : Nat}
    (hp : ∀ k, ∀ p ∈ st.look.getD k [], PlaceOk c m k p)
    (hfit : ∀ q ∈ st.arr, q.own = .dummy ∨ (q.own = .owned ∧ InBox q.pos c.bMin c.bMax) ∨ (q.own = .halo ∧ ¬ InBox q.pos c.bMin c.bMax)) (out : List Particle) :
    ∃ st', lrFlush c grow ps (st, out) = .ok (st', out ++ ps.filter fun p => decide (p.own ≠ .dummy ∧ ¬ InBox p.pos c.bMin c.bMax)) ∧ LRInv c st' ∧
      st'.arr = st.arr ++ (ps.filter fun p => decide (p.own ≠ .dummy ∧ InBox p.pos c.bMin c.bMax)).map fun p => { p with own := .owned } := by
  induction ps generalizing st out with
  | nil => exact ⟨st, by simp [lrFlush], hi, by simp⟩
  | cons p ps ih =>
    unfold lrFlush
    by_cases hd : p.own = .dummy
    · rw [if_pos hd]
      obtain ⟨st', h1, h2, h3⟩ := ih hi hp hfit out
      exact ⟨st', by rw [h1, List.filter_cons_of_neg (by simp [hd])], h2, by rw [h3, List.filter_cons_of_neg (by simp [hd])]⟩
    · rw [if_neg hd]
      by_cases hb : InBox p.pos c.bMin c.bMax
      · have hbb : inBoxB p.pos c.bMin c.bMax = true := by rw [inBoxB_iff]; exact decide_eq_true hb
        rw [if_pos hbb]
        have hf : LRFitting c { p with own := .owned } := (fitting_iff h _).2 (Or.inl ⟨rfl, hbb⟩)
        rcases lrAdd_spec h hg hi hp hf (by simp) with ⟨⟨q, hq, hq1, hq2⟩, -⟩ | ⟨st1, e1, e2, e3, e4⟩
        · exfalso
          apply hq2
          rw [fitting_iff h]
          rcases hfit q hq with hx | ⟨hx, hy⟩ | ⟨hx, hy⟩
          · exact absurd hx hq1
          · exact Or.inl ⟨hx, by rw [inBoxB_iff]; exact decide_eq_true hy⟩
          · exact Or.inr ⟨hx, by rw [inBoxB_iff]; exact decide_eq_false hy⟩
        · rw [e1]
          obtain ⟨st', h1, h2, h3⟩ := ih e3 e4 (by
            intro q hq
            rw [e2, List.mem_append] at hq
            rcases hq with hq | hq
            · exact hfit q hq
            · rw [List.mem_singleton] at hq
              subst hq
              exact Or.inr (Or.inl ⟨rfl, hb⟩)) out
          refine ⟨st', ?_, h2, ?_⟩
          · show lrFlush c grow ps (st1, out) = _
            rw [h1, List.filter_cons_of_neg (by simp [hb])]
          · rw [h3, e2, List.filter_cons_of_pos (by simp [hd, hb])]
            simp
      · have hbb : inBoxB p.pos c.bMin c.bMax = false := by rw [inBoxB_iff]; exact decide_eq_false hb
        rw [if_neg (by rw [hbb]; simp)]
        obtain ⟨st', h1, h2, h3⟩ := ih hi hp hfit (out ++ [p])
        refine ⟨st', ?_, h2, ?_⟩
        · show lrFlush c grow ps (st, out ++ [p]) = _
          rw [h1, List.filter_cons_of_pos (by simp [hd, hb])]
          simp
        · rw [h3, List.filter_cons_of_neg (by simp [hb])]

/-- The position of the particle a pointer leads to. -/
def lrPos (st : LRState) (q : LRPtr) : V3 Rat := ((st.deref q).map Particle.pos).getD ⟨0, 0, 0⟩

/-- The ownership state of the particle a pointer leads to. -/
def lrOwn (st : LRState) (q : LRPtr) : Ownership := ((st.deref q).map Particle.own).getD .dummy

/-- After any such history, a traversal gives every owned particle the contribution of every other particle within the cutoff
exactly once, provided the owned particles have moved at most half the skin since the cells were sorted (in particular if they
were just sorted). -/
theorem C82_forces_partial (h : LHParamsOk c) {grow : Nat → Nat} (hg : ∀ n, n < grow n) (as : List LRAction)
    (hn : as.length < 2 ^ 64) (hok : LRHistoryOk c grow (calm c) 0 (LRState.init c) [] as)
    (hfew : 12 * ((c.skinPerTimestep * (as.foldl (fun m a => LRAction.moves m a) 0 : Nat)) *
      (c.skinPerTimestep * (as.foldl (fun m a => LRAction.moves m a) 0 : Nat))) ≤ c.skin * c.skin)
    (st : LRState) (outs : List (List Particle)) (hrun : lrRun c grow (LRState.init c) as = .ok (st, outs))
    (t : LCTraversal) (f : CellFunctorCfg LRPtr) (ht : t.Applicable c.block.dims c.block.cellLength c.il)
    (hf : FunctorFor t (lrPos st) c.il f) (a b : LRPtr) (ha : a ∈ st.cells.flatten) (hb : b ∈ st.cells.flatten) (hab : a ≠ b)
    (hh : f.isHalo a = false) (ho : lrOwn st a = .owned)
    (hd : distSq (lrPos st a) (lrPos st b) ≤ (c.il - c.skin) * (c.il - c.skin)) :
    timesReceived (f.run (lcCells c.block st.cells) (t.ops c.block.dims c.block.cellLength c.il)) a b = 1 := by
  rcases from_start h hg (extra := calm c) (fun S a hx => hx.1) as hn hok with ⟨-, h2⟩ | ⟨st', outs', h1, h2, -, -, h5⟩
  · exact absurd (fun S a (hx : calm c S a) => hx.2) h2
  rw [hrun] at h1
  obtain ⟨rfl, rfl⟩ : st = st' ∧ outs = outs' := by cases h1; exact ⟨rfl, rfl⟩
  set m := as.foldl (fun m a => LRAction.moves m a) 0 with hm
  have hder : ∀ q ∈ st.cells.flatten, st.deref q = some (lrAt st.arr q.idx) := by
    intro q hq
    obtain ⟨k, hk⟩ := mem_flatten_getD'.1 hq
    have := h2.goodAt k q hk
    unfold LRState.deref; rw [if_pos this.1]; exact lrAt_some this.2
  have hnear : ∀ q, ∃ old, q ∈ st.cells.flatten → (∀ k, q ∈ st.cells.getD k [] → c.block.flatIndexOfPosition old = k) ∧
      Displaced (c.skinPerTimestep * m) (lrPos st q) old ∧ (lrOwn st q = .owned → InBox old c.bMin c.bMax) := by
    intro q
    by_cases hq : q ∈ st.cells.flatten
    · obtain ⟨k, hk⟩ := mem_flatten_getD'.1 hq
      have hpl := h5 k (lrAt st.arr q.idx) (by rw [look_getD]; exact List.mem_map.2 ⟨q, hk, rfl⟩)
      obtain ⟨old, e1, e2⟩ := hpl.near
      refine ⟨old, fun _ => ⟨?_, ?_, ?_⟩⟩
      · intro j hj
        rw [e1]
        by_contra hkj
        exact idx_disjoint h2.nodup hkj hk hj rfl
      · unfold lrPos; rw [hder q hq]; exact e2
      · intro hoo
        unfold lrOwn at hoo
        rw [hder q hq] at hoo
        have := hpl.ownedIn hoo
        rw [← e1, halo_iff_outside h, inBoxB_iff] at this
        simpa using this
    · exact ⟨⟨0, 0, 0⟩, fun hx => absurd hx hq⟩
  choose home hhome using hnear
  have hil : (c.il - c.skin) + c.skin = c.il := by ring
  have hskin : 0 ≤ c.skin := by unfold LHParams.skin; have := h.skinPos; positivity
  have key := C51_linked_cells_exactly_once c.bMin c.bMax (c.il - c.skin) c.skin c.csf (by have := h.cutoff; linarith) hskin
    (by rw [hil]; exact h.box) t (lrPos st) home f st.cells a b
  rw [hil] at key
  refine key ht hf ⟨?_, h2.nodup.of_map _, ?_⟩ ?_ ha hb hab hh ((hhome a ha).2.2 ho) hd
  · rw [h2.len]; exact block_numCells
  · intro k p hp
    exact (hhome p (mem_flatten_getD'.2 ⟨k, hp⟩)).1 k hp
  · intro p hp
    obtain ⟨-, ⟨d1, d2, d3⟩, -⟩ := hhome p hp
    have sq : ∀ x : Rat, |x| ≤ c.skinPerTimestep * m → x * x ≤ (c.skinPerTimestep * m) * (c.skinPerTimestep * m) := by
      intro x hx
      have h0 := abs_nonneg x
      have := mul_le_mul hx hx h0 (le_trans h0 hx)
      rwa [abs_mul_abs_self] at this
    have := sq _ d1
    have := sq _ d2
    have := sq _ d3
    unfold distSq
    linarith

/-! ### Where the full property fails -/

theorem lrClean_empty (b : CellBlock) (ks : List Nat) {st : LRState} (hc : ∀ l ∈ st.cells, l = []) :
    lrCleanCells b ks (st, []) = some (st, []) := by
  induction ks with
  | nil => rfl
  | cons k ks ih =>
    have hk : st.cells.getD k [] = [] := by
      rw [List.getD]
      cases hx : st.cells[k]? with
      | none => rfl
      | some l => exact hc l (List.mem_of_getElem? hx)
    have hset : st.cells.set k [] = st.cells := by
      apply List.ext_getElem?
      intro j
      by_cases hj : j = k
      · subst hj
        by_cases hl : j < st.cells.length
        · rw [List.getElem?_set_self hl, List.getElem?_eq_getElem hl, hc _ (List.getElem_mem hl)]
        · rw [List.set_eq_of_length_le (by omega)]
      · rw [List.getElem?_set_ne (Ne.symm hj)]
    unfold lrCleanCells lrCleanCell
    simp only [hk]
    have hv : st.viewCell [] = some [] := rfl
    rw [hv]
    simp only [Option.bind_some, List.zip_nil_left, List.filter_nil, List.map_nil]
    rw [lrPurge, dif_neg (by simp)]
    simp only [Option.map_some, hset, List.append_nil]
    exact ih

/-- `deleteAllParticles` empties the cells but not the vector: after the next `updateContainer(false)` all particles are back. -/
theorem C82_violated_delete_all (h : LHParamsOk c) {grow : Nat → Nat} (hg : ∀ n, n < grow n) (p : Particle) (ho : p.own = .owned)
    (hin : InBox p.pos c.bMin c.bMax) :
    ∃ st outs, lrRun c grow (LRState.init c) [.add p, .deleteAll, .rebuild id] = .ok (st, outs) ∧ lrOwned st = some [p] ∧
      (lrWantedRun c grow (LRState.init c) [] [.add p, .deleteAll, .rebuild id]).1 = [] := by
  have hf : LRFitting c p := (fitting_iff h p).2 (Or.inl ⟨ho, by rw [inBoxB_iff]; exact decide_eq_true hin⟩)
  obtain ⟨i1, i2⟩ := lrInit_inv h
  rcases lrAdd_spec h hg i1 (m := 0) (fun k q hq => by rw [i2 k] at hq; cases hq) hf (by rw [ho]; decide) with
    ⟨⟨q, hq, -⟩, -⟩ | ⟨st1, e1, e2, e3, e4⟩
  · simp [LRState.init] at hq
  · have harr : st1.arr = [p] := by rw [e2]; simp [LRState.init]
    set st2 := st1.deleteAll with hst2
    have hcells2 : ∀ l ∈ st2.cells, l = [] := by
      intro l hl
      obtain ⟨-, -, rfl⟩ := List.mem_map.1 hl
      rfl
    have hkeep : st2.arr.filter (fun p => decide (p.own ≠ .halo)) = [p] := by
      show st1.arr.filter _ = _
      rw [harr]; simp [ho]
    set st3 := st2.dropHaloAndDummies c with hst3
    have harr3 : st3.arr = [p] := by
      rw [hst3]; unfold LRState.dropHaloAndDummies
      dsimp only
      rw [hkeep]; simp [ho]
    have hcap3 : st3.arr.length ≤ st3.cap := by
      have h1 : st3.cap = st1.cap := rfl
      have h2 := e3.fit
      rw [harr3, h1]
      rw [harr] at h2
      exact h2
    have hlen3 : st3.cells.length = c.block.numCells := by
      rw [hst3]; unfold LRState.dropHaloAndDummies
      simp [hst2, LRState.deleteAll, e3.len]
    have hstep1 : lrStep c grow (LRState.init c) (.add p) = .ok (st1, []) := by rw [lrStep, e1]; rfl
    have hstep2 : lrStep c grow st1 .deleteAll = .ok (st2, []) := rfl
    rcases resort_spec h (st := st3) rfl rfl hcap3 hlen3 with ⟨⟨q, hq, -, hnf⟩, -⟩ | ⟨-, st4, f1, f2, f3, -⟩
    · rw [harr3] at hq
      rw [List.mem_singleton.1 hq] at hnf
      exact absurd hf hnf
    · have hstep3 : lrStep c grow st2 (.rebuild id) = .ok (st4, []) := by
        rw [lrStep]
        unfold LRState.updateRebuild
        rw [lrClean_empty _ _ hcells2]
        dsimp only [id, lrReadd, Outcome.bind]
        rw [← hst3, f1]
      refine ⟨st4, [[], [], []], ?_, ?_, ?_⟩
      · simp only [lrRun, hstep1, hstep2, hstep3, Outcome.bind]
      · rw [lrOwned_eq f3]
        have := f3.owned
        rw [f2, harr3, filter_owned_self (l := [p]) (by simpa using ho)] at this
        rw [List.perm_singleton.1 this]
      · simp only [lrWantedRun, hstep1, hstep2, hstep3, lrWanted, List.filter_nil]

theorem updateDirty_cap {st st' : LRState} (h : st.updateDirty c = .ok st') : st'.cap = st.cap := by
  unfold LRState.updateDirty at h
  split at h
  · dsimp only at h
    cases hs : lrSort c.block st.gen st.arr (List.range' st.dirtyIndex (st.arr.length - st.dirtyIndex))
        (if st.dirtyIndex = 0 then st.cells.map fun _ => [] else st.cells) with
    | ok cells => rw [hs] at h; dsimp only [Outcome.bind] at h; cases h; rfl
    | throws => rw [hs] at h; dsimp only [Outcome.bind] at h; cases h
    | ub => rw [hs] at h; dsimp only [Outcome.bind] at h; cases h
    | diverges => rw [hs] at h; dsimp only [Outcome.bind] at h; cases h
  · cases h; rfl

/-- A particle is added and moves out of the box, by no more than it may. The next particle is added, well inside the box, and the
vector (which has grown as libstdc++'s does) is full: everything is sorted in again, and this throws, because the first particle now
lies where only halo particles may be. This is what `LogicHandler::updateContainer` does when it rebuilds: it first adds the particles of
its buffers to the container (`lrFlush`) and only then lets the container hand back what has left the box. -/
theorem C82_violated_add_throws :
    let p : Particle := ⟨1, ⟨19/20, 1/2, 1/2⟩, .owned⟩
    let q : Particle := ⟨2, ⟨1/2, 1/2, 1/2⟩, .owned⟩
    let f : Particle → V3 Rat := fun r => ⟨r.pos.x + 1/10, r.pos.y, r.pos.z⟩
    let grow : Nat → Nat := fun n => if n = 0 then 1 else 2 * n
    LRHistoryOk exParams grow noDeleteAll 0 (LRState.init exParams) [] [.add p, .move f, .add q] ∧
    lrRun exParams grow (LRState.init exParams) [.add p, .move f, .add q] = .throws ∧
    ∃ st outs, lrRun exParams grow (LRState.init exParams) [.add p, .move f] = .ok (st, outs) ∧
      lrFlush exParams grow [q] (st, []) = .throws := by
  intro p q f grow
  have h := exParams_ok
  have hg : ∀ n, n < grow n := by intro n; dsimp only [grow]; split <;> omega
  have hpin : InBox p.pos exParams.bMin exParams.bMax := by decide +kernel
  have hqin : InBox q.pos exParams.bMin exParams.bMax := by decide +kernel
  have hf : LRFitting exParams p := (fitting_iff h p).2 (Or.inl ⟨rfl, by rw [inBoxB_iff]; exact decide_eq_true hpin⟩)
  obtain ⟨i1, i2⟩ := lrInit_inv h
  rcases lrAdd_spec h hg i1 (m := 0) (fun k q hq => by rw [i2 k] at hq; cases hq) hf (by decide) with
    ⟨⟨q, hq, -⟩, -⟩ | ⟨st1, e1, e2, e3, e4⟩
  · simp [LRState.init] at hq
  have harr : st1.arr = [p] := by rw [e2]; simp [LRState.init]
  have hcap : st1.cap = 1 := by
    have := updateDirty_cap e1
    rw [this]; rfl
  have hstep1 : lrStep exParams grow (LRState.init exParams) (.add p) = .ok (st1, []) := by rw [lrStep, e1]; rfl
  have hS1 : (st1.look.flatten.filter isOwned).Perm [p] := by
    have := e3.owned
    rw [harr] at this
    exact this
  have hmoveOk : LRActionOk exParams 0 st1 [p] (.move f) := by
    intro r hr
    rw [List.mem_singleton.1 hr]
    refine ⟨?_, ?_, ?_⟩ <;> norm_num [exParams, f, abs_le]
  rcases lrStep_spec h hg e3 e4 hS1 (by rw [harr]; norm_num) hmoveOk (by simp) with ⟨hx, -⟩ | ⟨st2, out2, f1, f2⟩
  · exact absurd hx (by simp [LRAction.adds])
  have hout2 : out2 = [] := by
    have := f2.handed
    simp only [lrWanted] at this
    exact List.perm_nil.1 this
  subst hout2
  have hcap2 : st2.cap = 1 := by
    simp only [lrStep, LRState.move, e3.view, Outcome.bind] at f1
    cases f1
    exact hcap
  have hlen2 : st2.arr.length = 1 := by
    simp only [lrStep, LRState.move, e3.view, Outcome.bind] at f1
    cases f1
    have hsh : (st1.look.map (List.map fun p => if p.own = .owned then { p with pos := f p } else p)).map List.length =
        st1.look.map List.length := by
      rw [List.map_map]; exact List.map_congr_left fun l _ => by simp
    rw [(writeBack_spec e3 hsh).2.2, harr]; rfl
  set p' : Particle := { p with pos := f p } with hp'
  have hmem2 : p' ∈ st2.arr := by
    have h6 := f2.inv.owned.symm.trans f2.owned
    simp only [lrWanted, List.map_cons, List.map_nil] at h6
    exact (List.mem_filter.1 (h6.symm.subset (List.mem_singleton.2 rfl))).1
  have hnofit : ¬ LRFitting exParams p' := by
    rw [fitting_iff h]
    have : inBoxB p'.pos exParams.bMin exParams.bMax = false := by decide +kernel
    rw [this]
    rintro (⟨-, hx⟩ | ⟨hx, -⟩)
    · cases hx
    · exact absurd hx (by decide)
  have hadd : st2.add exParams grow q = .throws := by
    unfold LRState.add
    have hpb : st2.pushBack grow q = { st2 with dirty := true, dirtyIndex := 0, arr := st2.arr ++ [q], cap := grow st2.cap, gen := st2.gen + 1 } := by
      unfold LRState.pushBack
      simp only
      rw [if_pos (by rw [hcap2, hlen2])]
    rcases resort_spec h (st := st2.pushBack grow q) (by rw [hpb]) (by rw [hpb])
        (by rw [hpb]; simp only [List.length_append, hlen2, hcap2, grow, List.length_singleton]; decide)
        (by rw [hpb]; exact f2.inv.len) with ⟨-, hx⟩ | ⟨hx, -⟩
    · exact hx
    · refine absurd (hx p' ?_ (by decide)) hnofit
      rw [hpb]
      exact List.mem_append_left _ hmem2
  refine ⟨?_, ?_, st2, [[], []], ?_, ?_⟩
  · refine ⟨⟨rfl, hpin⟩, by simp [noDeleteAll], ?_⟩
    intro r hr
    rw [hstep1] at hr
    cases hr
    refine ⟨hmoveOk, by simp [noDeleteAll], ?_⟩
    intro r2 _
    exact ⟨⟨rfl, hqin⟩, by simp [noDeleteAll], fun _ _ => trivial⟩
  · have hstep3 : lrStep exParams grow st2 (.add q) = .throws := by rw [lrStep, hadd]; rfl
    simp only [lrRun, hstep1, f1, hstep3, Outcome.bind]
  · simp only [lrRun, hstep1, f1, Outcome.bind]
  · have hq1 : inBoxB q.pos exParams.bMin exParams.bMax = true := by decide +kernel
    have hq2 : ¬ q.own = .dummy := by decide
    simp only [lrFlush, if_neg hq2, hq1, if_true]
    have hqq : ({ q with own := .owned } : Particle) = q := rfl
    rw [hqq, hadd]
    rfl

/-! Non-vacuity of the history theorems: two particles are added, one of them leaves the box and is handed back by
`updateContainer(true)`; a halo particle is added, `updateContainer(false)` follows. -/

private def exP : Particle := ⟨1, ⟨19/20, 1/2, 1/2⟩, .owned⟩
private def exQ : Particle := ⟨2, ⟨1/2, 1/2, 1/2⟩, .owned⟩
private def exH : Particle := ⟨3, ⟨3/2, 1/2, 1/2⟩, .halo⟩
private def exF : Particle → V3 Rat := fun r => ⟨r.pos.x + 1/10, r.pos.y, r.pos.z⟩
private def exLR : List LRAction := [.add exP, .add exQ, .move exF, .keep 1 exOrder, .addHalo exH, .rebuild List.reverse]

private theorem exLR_ok (grow : Nat → Nat) : LRHistoryOk exParams grow (calm exParams) 0 (LRState.init exParams) [] exLR := by
  refine ⟨⟨rfl, by decide +kernel⟩, ⟨by simp, fun _ => by simp⟩, fun r1 _ => ?_⟩
  refine ⟨⟨rfl, by decide +kernel⟩, ⟨by simp, fun _ => ?_⟩, fun r2 _ => ?_⟩
  · intro p hp
    simp only [lrWanted, List.nil_append, List.mem_singleton] at hp
    rw [hp]; decide +kernel
  refine ⟨?_, ⟨by simp, fun h => absurd h (by simp [LRAction.adds])⟩, fun r3 _ => ?_⟩
  · intro p _
    refine ⟨?_, ?_, ?_⟩ <;> norm_num [exParams, exF, abs_le]
  refine ⟨⟨le_refl _, by decide, List.Perm.refl _⟩, ⟨by simp, fun h => absurd h (by simp [LRAction.adds])⟩, fun r4 _ => ?_⟩
  refine ⟨⟨rfl, by decide +kernel⟩, ⟨by simp, fun _ => ?_⟩, fun r5 _ => ?_⟩
  · intro p hp
    simp only [lrWanted, List.mem_filter, decide_eq_true_eq] at hp
    exact hp.2
  exact ⟨fun l => List.reverse_perm l, ⟨by simp, fun h => absurd h (by simp [LRAction.adds])⟩, fun _ _ => trivial⟩

example (grow : Nat → Nat) (hg : ∀ n, n < grow n) : ∃ st outs own, lrRun exParams grow (LRState.init exParams) exLR = .ok (st, outs) ∧
    lrOwned st = some own ∧ own.length ≤ 2 := by
  obtain ⟨st, outs, own, h1, h2, h3, -⟩ := C82_history_partial exParams_ok hg exLR (by decide) (exLR_ok grow)
  refine ⟨st, outs, own, h1, h2, ?_⟩
  have key : ∀ (as : List LRAction) (st : LRState) (S : List Particle),
      (lrWantedRun exParams grow st S as).1.length ≤ S.length + (as.filter fun a => match a with | .add _ => true | _ => false).length := by
    intro as
    induction as with
    | nil => intro st S; simp [lrWantedRun]
    | cons a as ih =>
      intro st S
      have hw : (lrWanted exParams st S a).1.length ≤ S.length + ([a].filter fun a => match a with | .add _ => true | _ => false).length := by
        cases a <;> simp [lrWanted, List.length_filter_le]
        rename_i k i
        cases st.particleAt k i with
        | none => simp
        | some p =>
          dsimp only
          split
          · exact List.length_erase_le
          · exact le_refl _
      have hsplit : ((a :: as).filter fun a => match a with | .add _ => true | _ => false).length =
          ([a].filter fun a => match a with | .add _ => true | _ => false).length +
          (as.filter fun a => match a with | .add _ => true | _ => false).length := by
        rw [← List.length_append, ← List.filter_append]; rfl
      unfold lrWantedRun
      dsimp only
      cases lrStep exParams grow st a with
      | ok r => have := ih r.1 (lrWanted exParams st S a).1; dsimp only; omega
      | throws => dsimp only; omega
      | ub => dsimp only; omega
      | diverges => dsimp only; omega
  have := key exLR (LRState.init exParams) []
  rw [h3.length_eq]
  exact this

/-- The hypotheses of the force theorem that concern parameters can be met: after this history nothing has moved since the cells were
sorted. -/
example : exLR.foldl (fun m a => LRAction.moves m a) 0 = 0 ∧ LCTraversal.c18.Applicable exParams.block.dims exParams.block.cellLength exParams.il ∧
    (0 : Rat) ≤ exParams.skin * exParams.skin := ⟨rfl, trivial, by norm_num [exParams, LHParams.skin]⟩

/-- And the instance of the deletion bug. -/
example : ∃ st outs, lrRun exParams (fun n => n + 1) (LRState.init exParams) [.add exQ, .deleteAll, .rebuild id] = .ok (st, outs) ∧
    lrOwned st = some [exQ] := by
  obtain ⟨st, outs, h1, h2, -⟩ := C82_violated_delete_all exParams_ok (grow := fun n => n + 1) (by intro n; omega) exQ rfl (by decide +kernel)
  exact ⟨st, outs, h1, h2⟩

end Verif
