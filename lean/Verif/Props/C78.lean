import Verif.Lemmas.LCC01Triwise
import Verif.Props.C52
/-!
# C78 — three-body interactions are complete after every history

`computeInteractions` with a three-body functor: linked cells with `lc_c01`, direct sum with `ds_sequential`, each followed by the remainder
traversal over the insertion buffers. `timesReceived3 calls a b c` counts how often `a` receives the contribution of the unordered pair `b`, `c`.
-/
namespace Verif
open Spec

section
variable {c : LHParams} {h : List LHAction} {s : LHState} {f : CellFunctorCfg Slot}

theorem Ready.complete3 (H : Ready c s) (hf : C01Functor3 c.il Slot.pos Slot.own f) :
    CompleteCalls3 Slot.pos Slot.own c.cutoff s.slots (s.interactions3 c f) := by
  have hc := H.params
  have hk := lc3_complete (cells := slotsOf 0 s.cells) (home := H.home) (own := Slot.own) (csf := c.csf) (bMin := c.bMin) (bMax := c.bMax)
    (cutoff_nonneg hc) (lhSkin_nonneg hc) (by rw [cut_add]; exact hc.box) (by rw [cut_add]; exact hf) (by rw [cut_add]; exact H.sorted) ?_ ?_
  · simp only [cut_add] at hk
    exact hk.with_remainder (cutoff_nonneg hc) (slots_input s H.bl) (fun x hx => H.hown _ (slot_particle_flatten hx)) _
  · intro p hp
    obtain ⟨k, hk⟩ := mem_flatten_getD'.1 hp
    exact (H.home_spec hk).2
  · intro a ha hao
    obtain ⟨k, hk⟩ := mem_flatten_getD'.1 ha
    have h1 := H.ownedIn k _ (slot_particle hk) hao
    rw [← (H.home_spec hk).1, halo_iff_outside hc, Bool.not_eq_false', inBoxB_iff, decide_eq_true_eq] at h1
    exact h1

/-- C78 (linked cells). After every history that observes the obligations, every owned particle receives the contribution of every two other
particles (owned or halo) exactly once if the three are pairwise closer than the cutoff, wherever they are stored. -/
theorem C78_every_two_neighbours_once (H : ComputesAfter c h s) (hf : C01Functor3 c.il Slot.pos Slot.own f) (x y z : Slot)
    (hx : x ∈ s.slots) (hy : y ∈ s.slots) (hz : z ∈ s.slots) (hxy : x ≠ y) (hxz : x ≠ z) (hyz : y ≠ z) (hxo : x.own = .owned)
    (hyo : y.own ≠ .dummy) (hzo : z.own ≠ .dummy) (dxy : distSq x.pos y.pos < c.cutoff * c.cutoff)
    (dxz : distSq x.pos z.pos < c.cutoff * c.cutoff) (dyz : distSq y.pos z.pos < c.cutoff * c.cutoff) :
    timesReceived3 (s.interactions3 c f) x y z = 1 :=
  (H.ready.complete3 hf).once x hx y hy z hz hxy hxz hyz hxo hyo hzo dxy dxz dyz

/-- No contribution is received twice, and only different stored particles take part. -/
theorem C78_nothing_twice (H : ComputesAfter c h s) (hf : C01Functor3 c.il Slot.pos Slot.own f) (x y z : Slot) :
    timesReceived3 (s.interactions3 c f) x y z ≤ 1 ∧
    (timesReceived3 (s.interactions3 c f) x y z ≠ 0 → x ∈ s.slots ∧ y ∈ s.slots ∧ z ∈ s.slots ∧ x ≠ y ∧ x ≠ z ∧ y ≠ z) :=
  ⟨(H.ready.complete3 hf).most x y z, (H.ready.complete3 hf).mem x y z⟩

/-- What the user sees: whatever quantity `F a b c` (symmetric in `b`, `c`) the functor adds to a particle `a` on account of `b` and `c`, as long
as it is zero for dummies and if two of the three are not closer than the cutoff, `computeInteractions` adds to every owned particle the
sum over all pairs of other stored particles. -/
theorem C78_accumulates_sum {M : Type} [AddCommMonoid M] (H : ComputesAfter c h s) (hf : C01Functor3 c.il Slot.pos Slot.own f)
    (F : Slot → Slot → Slot → M) (hsym : ∀ x y z, F x y z = F x z y)
    (hz : ∀ x y z, (y.own = .dummy ∨ z.own = .dummy ∨ c.cutoff * c.cutoff ≤ distSq x.pos y.pos ∨ c.cutoff * c.cutoff ≤ distSq x.pos z.pos ∨
      c.cutoff * c.cutoff ≤ distSq y.pos z.pos) → F x y z = 0) (x : Slot) (hx : x ∈ s.slots) (hxo : x.own = .owned) :
    accumulated3 F (s.interactions3 c f) x = ((unorderedPairs (s.slots.filter fun y => y ≠ x)).map fun t => F x t.1 t.2).sum := by
  refine (H.ready.complete3 hf).accumulated (slots_input s H.ready.bl).nodup F hsym ?_ x hx hxo
  intro a _ b _ d _ _ _ _ hF
  have hno := mt (hz a b d) hF
  simp only [not_or, not_le] at hno
  unfold Close
  tauto

/-- The base cells of `lc_c01` can run concurrently: calls made for different base cells change different particles, and a call changes only
its first particle. -/
theorem C78_no_write_conflict {P : Type} [DecidableEq P] {bMin bMax : V3 Rat} {il csf : Rat} (hbox : GoodBox bMin bMax il csf)
    {pos home : P → V3 Rat} {own : P → Ownership} {f : CellFunctorCfg P} (hf : C01Functor3 il pos own f) {cells : List (List P)} :
    let blk := CellBlock.rebuild id bMin bMax il csf
    SortedIn blk home cells → ∀ m n : Nat, m ≠ n → ∀ l₁ l₂ : List CellOp3,
      (lcC01Triwise blk.dims blk.cellLength il)[m]? = some l₁ → (lcC01Triwise blk.dims blk.cellLength il)[n]? = some l₂ →
      ∀ t ∈ f.run3 (lcCells blk cells) l₁, ∀ u ∈ f.run3 (lcCells blk cells) l₂, t.newton3 = false ∧ t.p ≠ u.p := by
  intro blk hs m n hmn l₁ l₂ h1 h2 t ht u hu
  have hok := cells_ok hs
  have hd : C18Dims blk.dims blk.cellLength il := c18Dims_of hbox
  have key : ∀ (n : Nat) (l : List CellOp3) (t : TripleCall P), (lcC01Triwise blk.dims blk.cellLength il)[n]? = some l →
      t ∈ f.run3 (lcCells blk cells) l → t.newton3 = false ∧ ∃ b, (c01Bases blk.dims (overlapOf il blk.cellLength).toNat).flatten[n]? = some b ∧
        InGrid b blk.dims ∧ (threeToOneD (blk.indexOfPosition id (home t.p)) blk.dims : Int) = threeToOneD b blk.dims := by
    intro n l t hl ht
    unfold lcC01Triwise at hl
    rw [List.getElem?_map, Option.map_eq_some_iff] at hl
    obtain ⟨b, hb, rfl⟩ := hl
    unfold CellFunctorCfg.run3 at ht
    obtain ⟨op, hop, ht⟩ := List.mem_flatMap.1 ht
    obtain ⟨e, he, rfl⟩ := List.mem_map.1 hop
    have item := c01_item hd (q := (b, e)) (mem_basePairs.2 ⟨List.mem_of_getElem? hb, he⟩)
    obtain ⟨-, -, -, -, hn, hh⟩ := op3_calls hok hf.sorts (c01_valid (by omega) (by rw [item.flat1]; omega) (by rw [item.flat2]; omega)) ht
    rw [hf.bidirectional] at hh
    exact ⟨hn.trans hf.newton3, b, hb, item.base, ((C01Item.hits item).1 hh).1⟩
  obtain ⟨n1, b1, e1, g1, k1⟩ := key m l₁ t h1 ht
  obtain ⟨n2, b2, e2, g2, k2⟩ := key n l₂ u h2 hu
  refine ⟨n1, fun e => hmn ?_⟩
  rw [e] at k1
  have hb : b1 = b2 := (flat_iff g1 g2).1 (k1.symm.trans k2)
  subst hb
  obtain ⟨q1, q2⟩ := List.getElem?_eq_some_iff.1 e1
  obtain ⟨q3, q4⟩ := List.getElem?_eq_some_iff.1 e2
  exact (List.Nodup.getElem_inj_iff (nodup_colorTraversal _ _ _)).1 (q2.trans q4.symm)

end

section
variable {P : Type} [DecidableEq P] {bMin bMax : V3 Rat} {cutoff skin : Rat} {pos home : P → V3 Rat} {own : P → Ownership}
  {cells pb hb : List (List P)} {f : CellFunctorCfg P}

/-- `computeInteractions` with a three-body functor, DirectSum and the insertion buffers `pb` (owned) and `hb` (halo). -/
def dsInteractions3 (pos : P → V3 Rat) (own : P → Ownership) (cutoff : Rat) (f : CellFunctorCfg P) (cells pb hb : List (List P)) :
    List (TripleCall P) :=
  dsCalls3 f cells ++ remainder3B pos own f.newton3 cutoff cells.flatten pb hb

/-- C78 (direct sum), with and without Newton 3. `home p` is the position by which `p` was put into its cell; since then it moved by at most
half the skin. Missing for the full property: a skin larger than the cutoff, where sorted cells lose interactions as in C54. -/
theorem C78_direct_sum_partial (hcut : 0 ≤ cutoff) (hskin : 0 ≤ skin) (hsc : skin ≤ cutoff)
    (hs : DSSorted bMin bMax home cells) (hf : DSFunctor cutoff pos own f)
    (hm : ∀ p ∈ cells.flatten, 4 * distSq (pos p) (home p) ≤ skin * skin)
    (ho : ∀ p ∈ cells.flatten, own p = .owned → InBox (home p) bMin bMax)
    (hin : RemInput cells.flatten pb hb) (hhb : ∀ x ∈ hb.flatten, own x = .halo) (x y z : P) :
    let all := cells.flatten ++ (pb.flatten ++ hb.flatten)
    let calls := dsInteractions3 pos own cutoff f cells pb hb
    (x ∈ all → y ∈ all → z ∈ all → x ≠ y → x ≠ z → y ≠ z → own x = .owned → own y ≠ .dummy → own z ≠ .dummy →
      distSq (pos x) (pos y) < cutoff * cutoff → distSq (pos x) (pos z) < cutoff * cutoff → distSq (pos y) (pos z) < cutoff * cutoff →
      timesReceived3 calls x y z = 1) ∧
    timesReceived3 calls x y z ≤ 1 ∧
    (timesReceived3 calls x y z ≠ 0 → x ∈ all ∧ y ∈ all ∧ z ∈ all ∧ x ≠ y ∧ x ≠ z ∧ y ≠ z) := by
  have H := (ds3_complete hcut hskin hsc hs hf hm ho).with_remainder hcut hin hhb f.newton3
  exact ⟨fun h1 h2 h3 => H.once x h1 y h2 z h3, H.most x y z, H.mem x y z⟩

theorem C78_direct_sum_accumulates_partial {M : Type} [AddCommMonoid M] (hcut : 0 ≤ cutoff) (hskin : 0 ≤ skin) (hsc : skin ≤ cutoff)
    (hs : DSSorted bMin bMax home cells) (hf : DSFunctor cutoff pos own f)
    (hm : ∀ p ∈ cells.flatten, 4 * distSq (pos p) (home p) ≤ skin * skin)
    (ho : ∀ p ∈ cells.flatten, own p = .owned → InBox (home p) bMin bMax)
    (hin : RemInput cells.flatten pb hb) (hhb : ∀ x ∈ hb.flatten, own x = .halo)
    (F : P → P → P → M) (hsym : ∀ x y z, F x y z = F x z y)
    (hz : ∀ x y z, (own y = .dummy ∨ own z = .dummy ∨ cutoff * cutoff ≤ distSq (pos x) (pos y) ∨ cutoff * cutoff ≤ distSq (pos x) (pos z) ∨
      cutoff * cutoff ≤ distSq (pos y) (pos z)) → F x y z = 0) (x : P) (hx : x ∈ cells.flatten ++ (pb.flatten ++ hb.flatten))
    (hxo : own x = .owned) :
    accumulated3 F (dsInteractions3 pos own cutoff f cells pb hb) x =
      ((unorderedPairs ((cells.flatten ++ (pb.flatten ++ hb.flatten)).filter fun y => y ≠ x)).map fun t => F x t.1 t.2).sum := by
  refine ((ds3_complete hcut hskin hsc hs hf hm ho).with_remainder hcut hin hhb f.newton3).accumulated hin.nodup F hsym ?_ x hx hxo
  intro a _ b _ d _ _ _ _ hF
  have hno := mt (hz a b d) hF
  simp only [not_or, not_le] at hno
  unfold Close
  tauto

end

/-! Non-vacuity. -/

private def xF (n3 : Bool) : CellFunctorCfg Particle :=
  ⟨fun p => decide (p.own = .halo), false, n3, false, 0, 1, ⟨1, 1, 1⟩, sortByProjection Particle.pos⟩

private def xCells3 : List (List Particle) := [[⟨1, ⟨1/2, 5, 5⟩, .owned⟩, ⟨2, ⟨1/4, 5, 5⟩, .owned⟩], [⟨3, ⟨-1/4, 5, 5⟩, .halo⟩], [], [], [], [], []]

example (n3 : Bool) : timesReceived3 (dsInteractions3 Particle.pos Particle.own 1 (xF n3) xCells3 exVecs [[]])
    ⟨1, ⟨1/2, 5, 5⟩, .owned⟩ ⟨2, ⟨1/4, 5, 5⟩, .owned⟩ ⟨3, ⟨-1/4, 5, 5⟩, .halo⟩ = 1 := by
  have hs : DSSorted ⟨0, 0, 0⟩ ⟨10, 10, 10⟩ Particle.pos xCells3 := by
    refine ⟨rfl, by decide +kernel, ?_⟩
    intro k p hp
    have hk : k < 7 := by
      by_contra hk
      rw [List.getD_eq_getElem?_getD, List.getElem?_eq_none (by simpa [xCells3] using hk)] at hp
      simp at hp
    have hk : k = 0 ∨ k = 1 ∨ k = 2 ∨ k = 3 ∨ k = 4 ∨ k = 5 ∨ k = 6 := by omega
    rcases hk with rfl | rfl | rfl | rfl | rfl | rfl | rfl <;> revert p <;> decide +kernel
  have h1 : (⟨1, ⟨1/2, 5, 5⟩, .owned⟩ : Particle) ∈ xCells3.flatten ++ (exVecs.flatten ++ [[]].flatten) := by decide +kernel
  have h2 : (⟨2, ⟨1/4, 5, 5⟩, .owned⟩ : Particle) ∈ xCells3.flatten ++ (exVecs.flatten ++ [[]].flatten) := by decide +kernel
  have h3 : (⟨3, ⟨-1/4, 5, 5⟩, .halo⟩ : Particle) ∈ xCells3.flatten ++ (exVecs.flatten ++ [[]].flatten) := by decide +kernel
  have hr : RemInput xCells3.flatten exVecs [[]] := ⟨by decide +kernel, rfl⟩
  have hf : DSFunctor 1 Particle.pos Particle.own (xF n3) := ⟨rfl, rfl, sortByProjection_sorted _, fun _ => rfl⟩
  have d1 : distSq (⟨1/2, 5, 5⟩ : V3 Rat) ⟨1/4, 5, 5⟩ < 1 * 1 := by decide +kernel
  have d2 : distSq (⟨1/2, 5, 5⟩ : V3 Rat) ⟨-1/4, 5, 5⟩ < 1 * 1 := by decide +kernel
  have d3 : distSq (⟨1/4, 5, 5⟩ : V3 Rat) ⟨-1/4, 5, 5⟩ < 1 * 1 := by decide +kernel
  exact (C78_direct_sum_partial (skin := 1/2) (by norm_num) (by norm_num) (by norm_num) hs
    hf (fun p _ => by simp [distSq]) (by decide +kernel) hr (by simp) _ _ _).1 h1 h2 h3 (by decide) (by decide) (by decide)
    rfl (by decide) (by decide) d1 d2 d3

/-- Three particles go into the container, they are moved by a twentieth while the lists are kept, a fourth one is put into
a buffer, and interactions are computed. -/
private def exHistory78 : List LHAction :=
  [.add 0 ⟨1, ⟨1/4, 1/2, 1/2⟩, .owned⟩, .add 1 ⟨2, ⟨1/2, 1/2, 1/2⟩, .owned⟩, .add 1 ⟨3, ⟨1/2, 3/4, 1/2⟩, .owned⟩, .compute,
   .move fun p => ⟨p.pos.x + 1/20, p.pos.y, p.pos.z⟩, .update false exOrder, .add 1 ⟨4, ⟨1/2, 1/4, 1/2⟩, .owned⟩]

private theorem exHistory78_good : GoodHistory exParams exHistory78 := by
  refine ⟨exParams_ok, ?_, by decide⟩
  have hm : ∀ p : Particle, Displaced exParams.skinPerTimestep ((fun p : Particle => (⟨p.pos.x + 1/20, p.pos.y, p.pos.z⟩ : V3 Rat)) p) p.pos := by
    intro p
    refine ⟨?_, ?_, ?_⟩
    · show |p.pos.x + 1/20 - p.pos.x| ≤ 1/10
      rw [add_sub_cancel_left]; norm_num
    · show |p.pos.y - p.pos.y| ≤ 1/10
      rw [sub_self]; norm_num
    · show |p.pos.z - p.pos.z| ≤ 1/10
      rw [sub_self]; norm_num
  exact ⟨(by decide : 0 < 2), fun _ _ => ⟨(by decide : 1 < 2), fun _ _ => ⟨(by decide : 1 < 2), fun _ _ => ⟨trivial, fun _ _ =>
    ⟨⟨rfl, fun p _ => hm p⟩, fun _ _ => ⟨List.Perm.refl _, fun _ _ => ⟨(by decide : 1 < 2), fun _ _ => trivial⟩⟩⟩⟩⟩⟩⟩

private theorem exHistory78_close : HistoryClose exParams ⟨0, false⟩ (LHState.init exParams) exHistory78 := by
  refine ⟨trivial, fun _ _ => ⟨trivial, fun _ _ => ⟨trivial, fun _ _ => ⟨trivial, fun _ _ => ⟨fun p _ => ?_, fun _ _ => ⟨trivial, fun _ _ =>
    ⟨trivial, fun _ _ => trivial⟩⟩⟩⟩⟩⟩⟩
  show 4 * distSq _ _ ≤ (1/10 : Rat) * (1/10)
  unfold distSq
  simp only [add_sub_cancel_left, sub_self]
  norm_num

private theorem exHistory78_after : (Moves.after exParams ⟨0, false⟩ (LHState.init exParams) exHistory78).sinceUpdate = false := by
  have key : ∀ (as : List LHAction) (mv : Moves) (s : LHState), HistoryOk exParams mv s as → ∀ n, HInv exParams mv n s → n + as.length < 2 ^ 64 →
      (Moves.after exParams mv s as).sinceUpdate = as.foldl (fun b a => match a with | .move _ => true | .update _ _ => false | _ => b) mv.sinceUpdate := by
    intro as
    induction as with
    | nil => intro mv s _ n _ _; rfl
    | cons a as ih =>
      intro mv s hok n hinv hn
      rw [List.length_cons] at hn
      obtain ⟨s1, out, a1, a2, -⟩ := lhStep_spec exParams_ok hinv (by omega) a hok.1
      show (match lhStep exParams s a with | none => mv | some r => _).sinceUpdate = _
      rw [a1]
      refine (ih _ _ (hok.2 _ a1) _ a2 (by omega)).trans ?_
      cases a <;> rfl
  exact key _ _ _ exHistory78_good.obligations 0 (init_inv _) (by decide)

example : ∃ s, ComputesAfter exParams exHistory78 s ∧ (ownedOf s).length = 4 := by
  obtain ⟨s, outs, h1, h2, -⟩ := C25_particles_conserved exHistory78_good
  refine ⟨s, ⟨exHistory78_good, exHistory78_close, by decide, ⟨outs, h1⟩, exHistory78_after⟩, ?_⟩
  rw [h2.length_eq]
  decide +kernel

/-- A functor of the required kind. -/
example : C01Functor3 exParams.il Slot.pos Slot.own
    ⟨fun x => decide (x.own = .halo), false, false, false, 8, exParams.il, ⟨1, 1, 1⟩, sortByProjection Slot.pos⟩ :=
  ⟨rfl, rfl, rfl, sortByProjection_sorted _, fun _ => rfl⟩

end Verif
