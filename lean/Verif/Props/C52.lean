import Verif.Lemmas.WholeInteractions
import Verif.Props.C25
/-!
# C52 — computeInteractions is complete after every history

After every history of operations, `computeInteractions` (container traversal and remainder traversal together, LinkedCells container)
lets every owned particle feel every other particle within the cutoff exactly once, wherever the two are stored.

`GoodHistory`, `HistoryClose`: the user observes their obligations (in particular no particle moves further than half the skin per time
step). `(Moves.after ..).sinceUpdate = false`: `updateContainer` was called since the particles were moved last.
-/
namespace Verif
open Spec

/-- A state in which the user calls `computeInteractions`: reached by a history that observes the obligations; the particles were not
moved since the last `updateContainer`. -/
structure ComputesAfter (c : LHParams) (h : List LHAction) (s : LHState) : Prop where
  good : GoodHistory c h
  close : HistoryClose c ⟨0, false⟩ (LHState.init c) h
  rebuilds : 0 < c.rebuildFrequency
  run : ∃ outs, lhRun c (LHState.init c) h = some (s, outs)
  updated : (Moves.after c ⟨0, false⟩ (LHState.init c) h).sinceUpdate = false

theorem ComputesAfter.ready {c : LHParams} {h : List LHAction} {s : LHState} (H : ComputesAfter c h s) : Ready c s := by
  have hc := H.good.params
  obtain ⟨s', outs, r1, r2, r3⟩ := close_run hc h (init_inv c) (init_close c) (by have := H.good.short; omega) H.good.obligations H.close
  obtain ⟨outs', r⟩ := H.run
  rw [r] at r1
  cases r1
  exact ready_of_history hc H.rebuilds r2 r3 H.updated

/-- The configuration of a cell functor that works on places in the storage. -/
structure SlotFunctor (c : LHParams) (t : LCTraversal) (f : CellFunctorCfg Slot) : Prop where
  cfg : FunctorFor t Slot.pos c.il f
  halo : ∀ x, f.isHalo x = decide (x.own = .halo)

section
variable {c : LHParams} {h : List LHAction} {s : LHState} {t : LCTraversal} {f : CellFunctorCfg Slot}

theorem cut_add (c : LHParams) : c.cutoff + c.skin = c.il := sub_add_cancel _ _

theorem cutoff_nonneg (hc : LHParamsOk c) : 0 ≤ c.cutoff := sub_nonneg.2 hc.cutoff

theorem lhSkin_nonneg (hc : LHParamsOk c) : 0 ≤ c.skin := by
  have := hc.skinPos; unfold LHParams.skin; positivity

theorem Ready.container (H : Ready c s) (ht : t.Applicable c.block.dims c.block.cellLength c.il) (hf : SlotFunctor c t f) :
    CompleteCalls Slot.pos Slot.own c.cutoff (slotsOf 0 s.cells).flatten
      (f.run (lcCells c.block (slotsOf 0 s.cells)) (t.ops c.block.dims c.block.cellLength c.il)) := by
  have hc := H.params
  have hmem : ∀ x y, timesReceived (f.run (lcCells c.block (slotsOf 0 s.cells)) (t.ops c.block.dims c.block.cellLength c.il)) x y ≠ 0 →
      x ∈ (slotsOf 0 s.cells).flatten ∧ y ∈ (slotsOf 0 s.cells).flatten ∧ x ≠ y := by
    intro x y hxy
    obtain ⟨call, hcall, hm⟩ := mem_contributions_calls hxy
    have hk := C51_linked_cells_calls c.bMin c.bMax c.cutoff c.skin c.csf (by rw [cut_add]; exact hc.box) t Slot.pos H.home f
      (slotsOf 0 s.cells) call
    simp only [cut_add] at hk
    obtain ⟨k1, k2, k3, -⟩ := hk ht hf.cfg H.sorted hcall
    rcases hm with ⟨rfl, rfl⟩ | ⟨-, rfl, rfl⟩
    · exact ⟨k1, k2, k3⟩
    · exact ⟨k2, k1, k3.symm⟩
  refine ⟨?_, ?_, hmem⟩
  · intro a ha b hb hab hao hbo hd
    have hk := C51_linked_cells_exactly_once c.bMin c.bMax c.cutoff c.skin c.csf (cutoff_nonneg hc) (lhSkin_nonneg hc)
      (by rw [cut_add]; exact hc.box) t Slot.pos H.home f (slotsOf 0 s.cells) a b
    simp only [cut_add] at hk
    refine hk ht hf.cfg H.sorted ?_ ha hb hab ?_ ?_ (le_of_lt hd)
    · intro p hp
      obtain ⟨k, hk⟩ := mem_flatten_getD'.1 hp
      exact (H.home_spec hk).2
    · rw [hf.halo, hao]; rfl
    · obtain ⟨k, hk⟩ := mem_flatten_getD'.1 ha
      have h1 := H.ownedIn k _ (slot_particle hk) hao
      rw [← (H.home_spec hk).1, halo_iff_outside hc, Bool.not_eq_false', inBoxB_iff, decide_eq_true_eq] at h1
      exact h1
  · intro a b
    by_cases hab : a = b
    · by_contra hx
      exact (hmem a b (by omega)).2.2 hab
    · have hk := C51_linked_cells_at_most_once c.bMin c.bMax c.cutoff c.skin c.csf (by rw [cut_add]; exact hc.box) t Slot.pos H.home f
        (slotsOf 0 s.cells) a b
      simp only [cut_add] at hk
      exact hk ht hf.cfg H.sorted hab

theorem Ready.complete (H : Ready c s) (ht : t.Applicable c.block.dims c.block.cellLength c.il) (hf : SlotFunctor c t f) :
    CompleteCalls Slot.pos Slot.own c.cutoff s.slots (s.interactions c t f) :=
  (H.container ht hf).with_remainder (cutoff_nonneg H.params) (slots_input s H.bl)
    (fun x hx => H.hown _ (slot_particle_flatten hx)) _

/-- C52. Every owned particle receives the contribution of every other particle (owned or halo) closer than the cutoff exactly once,
whether they are in the container or still in an insertion buffer. -/
theorem C52_every_neighbour_once (H : ComputesAfter c h s) (ht : t.Applicable c.block.dims c.block.cellLength c.il)
    (hf : SlotFunctor c t f) (a b : Slot) (ha : a ∈ s.slots) (hb : b ∈ s.slots) (hab : a ≠ b) (hao : a.own = .owned)
    (hbo : b.own ≠ .dummy) (hd : distSq a.pos b.pos < c.cutoff * c.cutoff) :
    timesReceived (s.interactions c t f) a b = 1 :=
  (H.ready.complete ht hf).once a ha b hb hab hao hbo hd

/-- No contribution is received twice, and only stored particles take part. -/
theorem C52_nothing_twice (H : ComputesAfter c h s) (ht : t.Applicable c.block.dims c.block.cellLength c.il)
    (hf : SlotFunctor c t f) (a b : Slot) : timesReceived (s.interactions c t f) a b ≤ 1 ∧
      (timesReceived (s.interactions c t f) a b ≠ 0 → a ∈ s.slots ∧ b ∈ s.slots ∧ a ≠ b) :=
  ⟨(H.ready.complete ht hf).most a b, (H.ready.complete ht hf).mem a b⟩

/-- What the user sees: whatever quantity `F a b` the functor adds to a particle `a` on account of a particle `b`, as long as it is zero for
dummies and from the cutoff on, `computeInteractions` adds to every owned particle the sum over all other stored particles. -/
theorem C52_accumulates_sum {M : Type} [AddCommMonoid M] (H : ComputesAfter c h s)
    (ht : t.Applicable c.block.dims c.block.cellLength c.il) (hf : SlotFunctor c t f) (F : Slot → Slot → M)
    (hz : ∀ a b, (b.own = .dummy ∨ c.cutoff * c.cutoff ≤ distSq a.pos b.pos) → F a b = 0)
    (a : Slot) (ha : a ∈ s.slots) (hao : a.own = .owned) :
    accumulated F (s.interactions c t f) a = ((s.slots.filter fun b => b ≠ a).map (F a)).sum := by
  exact (H.ready.complete ht hf).accumulated (slots_input s H.ready.bl).nodup F hz a ha hao

end

/-! Non-vacuity: three particles go into the container, they are moved by a twentieth while the lists are kept, a fourth one is put into
a buffer, and interactions are computed. -/

private def exCloseHistory : List LHAction :=
  [.add 0 ⟨1, ⟨1/4, 1/2, 1/2⟩, .owned⟩, .add 1 ⟨2, ⟨1/2, 1/2, 1/2⟩, .owned⟩, .add 1 ⟨3, ⟨1/2, 3/4, 1/2⟩, .owned⟩, .compute,
   .move fun p => ⟨p.pos.x + 1/20, p.pos.y, p.pos.z⟩, .update false exOrder, .add 1 ⟨4, ⟨1/2, 1/4, 1/2⟩, .owned⟩]

private theorem exCloseHistory_good : GoodHistory exParams exCloseHistory := by
  refine ⟨exParams_ok, ?_, by decide⟩
  have hm : ∀ p : Particle, Displaced exParams.skinPerTimestep ((fun p : Particle => (⟨p.pos.x + 1/20, p.pos.y, p.pos.z⟩ : V3 Rat)) p) p.pos := by
    intro p
    refine ⟨?_, ?_, ?_⟩
    · show |p.pos.x + 1/20 - p.pos.x| ≤ 1/10
      rw [add_sub_cancel_left]; norm_num
    · show |p.pos.y - p.pos.y| ≤ 1/10
      rw [sub_self]; norm_num
    · show |p.pos.z - p.pos.z| ≤ 1/10
      rw [sub_self]; norm_num
  exact ⟨(by decide : 0 < 2), fun _ _ => ⟨(by decide : 1 < 2), fun _ _ => ⟨(by decide : 1 < 2), fun _ _ => ⟨trivial, fun _ _ =>
    ⟨⟨rfl, fun p _ => hm p⟩, fun _ _ => ⟨List.Perm.refl _, fun _ _ => ⟨(by decide : 1 < 2), fun _ _ => trivial⟩⟩⟩⟩⟩⟩⟩

private theorem exCloseHistory_close : HistoryClose exParams ⟨0, false⟩ (LHState.init exParams) exCloseHistory := by
  refine ⟨trivial, fun _ _ => ⟨trivial, fun _ _ => ⟨trivial, fun _ _ => ⟨trivial, fun _ _ => ⟨fun p _ => ?_, fun _ _ => ⟨trivial, fun _ _ =>
    ⟨trivial, fun _ _ => trivial⟩⟩⟩⟩⟩⟩⟩
  show 4 * distSq _ _ ≤ (1/10 : Rat) * (1/10)
  unfold distSq
  simp only [add_sub_cancel_left, sub_self]
  norm_num

private theorem exCloseHistory_after : (Moves.after exParams ⟨0, false⟩ (LHState.init exParams) exCloseHistory).sinceUpdate = false := by
  have key : ∀ (as : List LHAction) (mv : Moves) (s : LHState), HistoryOk exParams mv s as → ∀ n, HInv exParams mv n s → n + as.length < 2 ^ 64 →
      (Moves.after exParams mv s as).sinceUpdate = as.foldl (fun b a => match a with | .move _ => true | .update _ _ => false | _ => b) mv.sinceUpdate := by
    intro as
    induction as with
    | nil => intro mv s _ n _ _; rfl
    | cons a as ih =>
      intro mv s hok n hinv hn
      rw [List.length_cons] at hn
      obtain ⟨s1, out, a1, a2, -⟩ := lhStep_spec exParams_ok hinv (by omega) a hok.1
      show (match lhStep exParams s a with | none => mv | some r => _).sinceUpdate = _
      rw [a1]
      refine (ih _ _ (hok.2 _ a1) _ a2 (by omega)).trans ?_
      cases a <;> rfl
  exact key _ _ _ exCloseHistory_good.obligations 0 (init_inv _) (by decide)

example : ∃ s, ComputesAfter exParams exCloseHistory s ∧ (ownedOf s).length = 4 := by
  obtain ⟨s, outs, h1, h2, -⟩ := C25_particles_conserved exCloseHistory_good
  refine ⟨s, ⟨exCloseHistory_good, exCloseHistory_close, by decide, ⟨outs, h1⟩, exCloseHistory_after⟩, ?_⟩
  rw [h2.length_eq]
  decide +kernel

/-- A functor of the required kind. -/
example (t : LCTraversal) (soa : Bool) : SlotFunctor exParams t
    ⟨fun x => decide (x.own = .halo), soa, false, t.bidirectional, 8, exParams.il, ⟨1, 1, 1⟩, sortByProjection Slot.pos⟩ :=
  ⟨⟨rfl, rfl, fun _ => rfl, sortByProjection_sorted _⟩, fun _ => rfl⟩

end Verif
