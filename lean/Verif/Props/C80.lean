import Verif.Lemmas.LCC01RingComplete
import Verif.Lemmas.LJTraversal
/-!
# C80 — the traversal `lc_c01_combined_SoA` is complete

Each thread keeps a ring of buffers that it shifts while it moves along a row of cells. Whichever thread gets which rows in which order, and
whatever the buffers contain from earlier: after every history, every owned particle receives the contribution of every other particle within
the cutoff exactly once, and the functor adds up the same as with any other traversal.
-/
namespace Verif
open Spec

section
variable {P : Type} [DecidableEq P] [Inhabited P]

theorem FunctorFor.combined {pos : P → V3 Rat} {il : Rat} {f : CellFunctorCfg P} (h : FunctorFor .c01 pos il f) (hs : f.soa = true) :
    CombinedFunctor f := ⟨hs, h.c01 rfl, h.bidirectional⟩

/-- `lc_c01` on cells all of which may hold owned particles. -/
private theorem open_once {bMin bMax : V3 Rat} {il csf : Rat} (hbox : GoodBox bMin bMax il csf) {pos home : P → V3 Rat}
    {f : CellFunctorCfg P} {cells : List (List P)} (hf : FunctorFor .c01 pos il f)
    (hs : SortedIn (CellBlock.rebuild id bMin bMax il csf) home cells) (a b : P) :
    timesReceived (f.run (openCells (lcCells (CellBlock.rebuild id bMin bMax il csf) cells))
      (lcC01 (CellBlock.rebuild id bMin bMax il csf).dims (CellBlock.rebuild id bMin bMax il csf).cellLength il)) a b ≤ 1 ∧
    (timesReceived (f.run (openCells (lcCells (CellBlock.rebuild id bMin bMax il csf) cells))
      (lcC01 (CellBlock.rebuild id bMin bMax il csf).dims (CellBlock.rebuild id bMin bMax il csf).cellLength il)) a b ≠ 0 →
      a ∈ cells.flatten ∧ b ∈ cells.flatten ∧ a ≠ b) := by
  have facts := lcTraversal_facts hbox .c01 trivial
  have hbo : (f.newton3 || f.bidirectional) = LCTraversal.c01.bidirectional := hf.both
  have hok := cells_ok hs
  have hopen : CellsOk (openCells (lcCells (CellBlock.rebuild id bMin bMax il csf) cells)) (fun p => (threeToOneD
      ((CellBlock.rebuild id bMin bMax il csf).indexOfPosition id (home p)) (CellBlock.rebuild id bMin bMax il csf).dims : Int)) :=
    ⟨fun i => by rw [(cellAt_open i).1]; exact hok.nodup i, fun i p hi hp => hok.mem i p hi (by rwa [(cellAt_open i).1] at hp)⟩
  have hmem : timesReceived (f.run (openCells (lcCells (CellBlock.rebuild id bMin bMax il csf) cells))
      (lcC01 (CellBlock.rebuild id bMin bMax il csf).dims (CellBlock.rebuild id bMin bMax il csf).cellLength il)) a b ≠ 0 →
      a ∈ cells.flatten ∧ b ∈ cells.flatten ∧ a ≠ b := by
    intro hx
    obtain ⟨c, hc, hm⟩ := mem_contributions_calls hx
    obtain ⟨op, hop, hc⟩ := List.mem_flatMap.1 hc
    have mem : ∀ k : Int, ∀ p ∈ (cellAt (openCells (lcCells (CellBlock.rebuild id bMin bMax il csf) cells)) k).particles, p ∈ cells.flatten := by
      intro k p hp
      rw [(cellAt_open k).1, (cellAt_lcCells k).1] at hp
      exact mem_flatten_getD'.2 ⟨_, hp⟩
    obtain ⟨i, j, hi, hj, hne, hn⟩ := op_calls hopen hf.sorts (validOp_of (facts.valid op hop)) hc
    rcases hm with ⟨rfl, rfl⟩ | ⟨-, rfl, rfl⟩
    · exact ⟨mem i _ hi, mem j _ hj, hne⟩
    · exact ⟨mem j _ hj, mem i _ hi, hne.symm⟩
  refine ⟨?_, hmem⟩
  by_cases hab : a = b
  · by_contra hx
    exact (hmem (by omega)).2.2 hab
  · refine le_trans (timesReceived_flatMap_le (q := hits LCTraversal.c01.bidirectional
      (threeToOneD ((CellBlock.rebuild id bMin bMax il csf).indexOfPosition id (home a)) (CellBlock.rebuild id bMin bMax il csf).dims)
      (threeToOneD ((CellBlock.rebuild id bMin bMax il csf).indexOfPosition id (home b)) (CellBlock.rebuild id bMin bMax il csf).dims)) ?_)
      (facts.most _ _ (hbox.inGrid _) (hbox.inGrid _))
    intro op hop
    rw [← hbo]
    exact op_received_le hopen hf.sorts hab (validOp_of (facts.valid op hop))

/-- Every particle that is not a halo particle and was sorted into the box receives the contribution of every other stored particle
(owned or halo) within the cutoff exactly once. `threads`: what each thread finds in its buffers, and the rows it processes. -/
theorem C80_exactly_once (bMin bMax : V3 Rat) (cutoff skin csf : Rat) (hcut : 0 ≤ cutoff) (hskin : 0 ≤ skin)
    (hbox : GoodBox bMin bMax (cutoff + skin) csf) (pos home : P → V3 Rat) (f : CellFunctorCfg P)
    (cells : List (List P)) (threads : List (C01Ring P × List (Nat × Nat))) (a b : P) :
    let blk := CellBlock.rebuild id bMin bMax (cutoff + skin) csf
    FunctorFor .c01 pos (cutoff + skin) f → f.soa = true →
    (threads.flatMap Prod.snd).Perm (c01Rows blk.dims (overlapOf (cutoff + skin) blk.cellLength).toNat) →
    SortedIn blk home cells →
    (∀ p ∈ cells.flatten, 4 * distSq (pos p) (home p) ≤ skin * skin) →
    a ∈ cells.flatten → b ∈ cells.flatten → a ≠ b →
    f.isHalo a = false → InBox (home a) bMin bMax →
    distSq (pos a) (pos b) ≤ cutoff * cutoff →
    timesReceived (lcC01Combined f (lcCells blk cells) blk.dims blk.cellLength (cutoff + skin) threads) a b = 1 := by
  intro blk hf hsoa ht hs hm ha hb hab hh hin hd
  have hbet := combined_between (cells := lcCells blk cells) (c18Dims_of hbox) (hf.combined hsoa) ht a b
  have h1 := C51_linked_cells_exactly_once bMin bMax cutoff skin csf hcut hskin hbox .c01 pos home f cells a b trivial hf hs hm ha hb hab hh hin hd
  have h2 := (open_once hbox hf hs a b).1
  exact le_antisymm (hbet.2.trans h2) (h1.symm.le.trans hbet.1)

/-- No particle receives the contribution of another particle twice, and only stored particles take part. -/
theorem C80_at_most_once (bMin bMax : V3 Rat) (il csf : Rat) (hbox : GoodBox bMin bMax il csf) (pos home : P → V3 Rat) (f : CellFunctorCfg P)
    (cells : List (List P)) (threads : List (C01Ring P × List (Nat × Nat))) (a b : P) :
    let blk := CellBlock.rebuild id bMin bMax il csf
    let calls := lcC01Combined f (lcCells blk cells) blk.dims blk.cellLength il threads
    FunctorFor .c01 pos il f → f.soa = true →
    (threads.flatMap Prod.snd).Perm (c01Rows blk.dims (overlapOf il blk.cellLength).toNat) →
    SortedIn blk home cells →
    timesReceived calls a b ≤ 1 ∧ (timesReceived calls a b ≠ 0 → a ∈ cells.flatten ∧ b ∈ cells.flatten ∧ a ≠ b) := by
  intro blk calls hf hsoa ht hs
  have hbet := combined_between (cells := lcCells blk cells) (c18Dims_of hbox) (hf.combined hsoa) ht a b
  have h2 := open_once hbox hf hs a b
  refine ⟨hbet.2.trans h2.1, fun hx => h2.2 fun h0 => hx ?_⟩
  have := hbet.2
  rw [h0] at this
  exact Nat.le_zero.1 this

end

/-! ## After every history -/

/-- `computeInteractions(functor, traversal)` with `lc_c01_combined_SoA`,
/repo/src/autopas/LogicHandler.h:1041-1101: traversal and remainder traversal. -/
def LHState.combinedInteractions (c : LHParams) (s : LHState) (f : CellFunctorCfg Slot) (threads : List (C01Ring Slot × List (Nat × Nat))) :
    List (PairCall Slot) :=
  lcC01Combined f (lcCells c.block (slotsOf 0 s.cells)) c.block.dims c.block.cellLength c.il threads ++
    remainder2B Slot.pos Slot.own f.newton3 c.cutoff (slotsOf 0 s.cells).flatten (slotsOf 1 s.bufs) (slotsOf 2 s.haloBufs)

section
variable {c : LHParams} {h : List LHAction} {s : LHState} {f : CellFunctorCfg Slot} {threads : List (C01Ring Slot × List (Nat × Nat))}

theorem Ready.combined (H : Ready c s) (hf : SlotFunctor c .c01 f) (hsoa : f.soa = true)
    (ht : (threads.flatMap Prod.snd).Perm (c01Rows c.block.dims (overlapOf c.il c.block.cellLength).toNat)) :
    CompleteCalls Slot.pos Slot.own c.cutoff s.slots (s.combinedInteractions c f threads) := by
  have hc := H.params
  have hmost := fun x y => C80_at_most_once c.bMin c.bMax c.il c.csf hc.box Slot.pos H.home f (slotsOf 0 s.cells) threads x y
    hf.cfg hsoa ht H.sorted
  refine CompleteCalls.with_remainder (cont := (slotsOf 0 s.cells).flatten) ⟨?_, fun a b => (hmost a b).1, fun a b => (hmost a b).2⟩
    (cutoff_nonneg H.params) (slots_input s H.bl) (fun x hx => H.hown _ (slot_particle_flatten hx)) _
  intro a ha b hb hab hao hbo hd
  have hk := C80_exactly_once c.bMin c.bMax c.cutoff c.skin c.csf (cutoff_nonneg hc) (lhSkin_nonneg hc)
    (by rw [cut_add]; exact hc.box) Slot.pos H.home f (slotsOf 0 s.cells) threads a b
  simp only [cut_add] at hk
  refine hk hf.cfg hsoa ht H.sorted ?_ ha hb hab ?_ ?_ (le_of_lt hd)
  · intro p hp
    obtain ⟨k, hk⟩ := mem_flatten_getD'.1 hp
    exact (H.home_spec hk).2
  · rw [hf.halo, show a.own = .owned from hao]; rfl
  · obtain ⟨k, hk⟩ := mem_flatten_getD'.1 ha
    have h1 := H.ownedIn k _ (slot_particle hk) hao
    rw [← (H.home_spec hk).1, halo_iff_outside hc, Bool.not_eq_false', inBoxB_iff, decide_eq_true_eq] at h1
    exact h1

/-- C80. After every history, every owned particle receives the contribution of every other particle (owned or halo) closer than the cutoff
exactly once. -/
theorem C80_every_neighbour_once (H : ComputesAfter c h s) (hf : SlotFunctor c .c01 f) (hsoa : f.soa = true)
    (ht : (threads.flatMap Prod.snd).Perm (c01Rows c.block.dims (overlapOf c.il c.block.cellLength).toNat))
    (a b : Slot) (ha : a ∈ s.slots) (hb : b ∈ s.slots) (hab : a ≠ b) (hao : a.own = .owned)
    (hbo : b.own ≠ .dummy) (hd : distSq a.pos b.pos < c.cutoff * c.cutoff) :
    timesReceived (s.combinedInteractions c f threads) a b = 1 :=
  (H.ready.combined hf hsoa ht).once a ha b hb hab hao hbo hd

/-- Whatever quantity `F a b` the functor adds to a particle `a` on account of a particle `b`, as long as it is zero for dummies and from the
cutoff on, every owned particle gets the sum over all other stored particles. -/
theorem C80_accumulates_sum {M : Type} [AddCommMonoid M] (H : ComputesAfter c h s) (hf : SlotFunctor c .c01 f) (hsoa : f.soa = true)
    (ht : (threads.flatMap Prod.snd).Perm (c01Rows c.block.dims (overlapOf c.il c.block.cellLength).toNat)) (F : Slot → Slot → M)
    (hz : ∀ a b, (b.own = .dummy ∨ c.cutoff * c.cutoff ≤ distSq a.pos b.pos) → F a b = 0)
    (a : Slot) (ha : a ∈ s.slots) (hao : a.own = .owned) :
    accumulated F (s.combinedInteractions c f threads) a = ((s.slots.filter fun b => b ≠ a).map (F a)).sum :=
  (H.ready.combined hf hsoa ht).accumulated (slots_input s H.ready.bl).nodup F hz a ha hao

end

/-! Non-vacuity: box `[0,1)³`, interaction length 1, so one row of one base cell with 27 offsets; and two rows of a larger block on two threads,
one of which finds garbage in its buffers. -/

private instance : Inhabited Particle := ⟨exDummy⟩

example : timesReceived (lcC01Combined
    (⟨fun p => p.own = .halo, true, false, false, 0, 3/4 + 1/4, ⟨1, 1, 1⟩, sortByProjection Particle.pos⟩ : CellFunctorCfg Particle)
    (lcCells (CellBlock.rebuild id ⟨0, 0, 0⟩ ⟨1, 1, 1⟩ (3/4 + 1/4) 1) exCells)
    (CellBlock.rebuild id ⟨0, 0, 0⟩ ⟨1, 1, 1⟩ (3/4 + 1/4) 1).dims
    (CellBlock.rebuild id ⟨0, 0, 0⟩ ⟨1, 1, 1⟩ (3/4 + 1/4) 1).cellLength (3/4 + 1/4)
    [(⟨7, [[exOwned]]⟩, c01Rows (CellBlock.rebuild id ⟨0, 0, 0⟩ ⟨1, 1, 1⟩ (3/4 + 1/4) 1).dims
      (overlapOf (3/4 + 1/4) (CellBlock.rebuild id ⟨0, 0, 0⟩ ⟨1, 1, 1⟩ (3/4 + 1/4) 1).cellLength).toNat)]) exOwned exOwned2 = 1 := by
  have e : (3/4 + 1/4 : Rat) = 1 := by norm_num
  exact C80_exactly_once ⟨0, 0, 0⟩ ⟨1, 1, 1⟩ (3/4) (1/4) 1 (by norm_num) (by norm_num) (by rw [e]; exact exGood)
    Particle.pos Particle.pos _ exCells _ exOwned exOwned2 ⟨rfl, rfl, fun _ => rfl, sortByProjection_sorted _⟩ rfl
    (List.Perm.of_eq (List.append_nil _)) exSortedIn
    (by intro p _; simp [distSq]) (by decide +kernel) (by decide +kernel) (by decide +kernel) rfl (by decide +kernel)
    (by decide +kernel)

example : c01Rows ⟨5, 4, 3⟩ ⟨1, 1, 1⟩ = [(1, 1), (2, 1)] ∧ c01Row ⟨5, 4, 3⟩ ⟨1, 1, 1⟩ (2, 1) = [⟨1, 2, 1⟩, ⟨2, 2, 1⟩, ⟨3, 2, 1⟩] := by
  constructor
  · simp [c01Rows, V3.sub, forUp]
  · simp [c01Row, V3.sub, forUp]

end Verif
