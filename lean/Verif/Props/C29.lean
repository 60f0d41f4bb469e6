import Verif.Lemmas.LCResize
import Verif.Props.C27
/-!
# C29 — resizing the box returns and keeps the right particles
-/
namespace Verif
open Spec

theorem reached {c : LHParams} {h : List LHAction} (H : GoodHistory c h) {s : LHState} {outs : List (List Particle)}
    (hr : lhRun c (LHState.init c) h = some (s, outs)) : ∃ mv, HInv c mv h.length s := by
  obtain ⟨s0, outs', h1, ⟨mv, h2⟩, -⟩ := lhRun_spec H.params h (init_inv c) (by have := H.short; omega) H.obligations
  rw [hr] at h1
  simp only [Option.some.injEq, Prod.mk.injEq] at h1
  obtain ⟨rfl, -⟩ := h1
  exact ⟨mv, by simpa using h2⟩

/-- C29 (partial). In every state reached by a history in which the container holds no halo particle and the insertion buffers are empty,
resizing to another (sensible) box hands back, as a multiset, exactly the owned particles outside the new box and keeps exactly the
owned particles inside it. Missing: particles in insertion buffers are neither checked nor handed back, see `C29_violated_buffers`. -/
theorem C29_resize_exact_partial {c : LHParams} {h : List LHAction} (H : GoodHistory c h) {s : LHState} {outs : List (List Particle)}
    (hr : lhRun c (LHState.init c) h = some (s, outs)) {lo hi : V3 Rat} (hc' : LHParamsOk (c.withBox lo hi))
    (hdiff : ¬ (c.bMin = lo ∧ c.bMax = hi)) (hh : ∀ p ∈ s.cells.flatten, p.own ≠ .halo) (hb : s.bufs.flatten = []) :
    ∃ s' out, s.resizeBox c lo hi = .ok (c.withBox lo hi, s', out) ∧
      out.Perm ((ownedOf s).filter fun p => ¬ InBox p.pos lo hi) ∧ (ownedOf s').Perm ((ownedOf s).filter fun p => InBox p.pos lo hi) := by
  obtain ⟨mv, h2⟩ := reached H hr
  obtain ⟨s', out, r1, r2, r3, r4, r5, r6, r7⟩ := resize_step H.params h2 H.short hc' hdiff hh
  have ho : ownedOf s = s.cells.flatten.filter isOwned := by rw [ownedOf_eq h2.bown h2.hown, hb, List.append_nil]
  have ho' : ownedOf s' = s'.cells.flatten.filter isOwned := by rw [ownedOf_eq r2.bown r2.hown, r5, hb, List.append_nil]
  refine ⟨s', out, r1, r3.trans ?_, ?_⟩
  · rw [ho, List.filter_congr]
    intro p _; rw [inBoxB_iff]; simp
  · rw [ho', ho]
    refine (r4.filter _).trans ?_
    rw [List.filter_eq_self.2 (fun p hp => (List.mem_filter.1 (List.mem_filter.1 hp).1).2),
      List.filter_congr (fun p _ => inBoxB_iff _ _ _)]

/-- C29 (partial), with particles in the buffers: nothing is lost or duplicated by resizing, everything handed back is outside the new box, and what
the container keeps is inside. -/
theorem C29_nothing_lost_partial {c : LHParams} {h : List LHAction} (H : GoodHistory c h) {s : LHState} {outs : List (List Particle)}
    (hr : lhRun c (LHState.init c) h = some (s, outs)) {lo hi : V3 Rat} (hc' : LHParamsOk (c.withBox lo hi))
    (hdiff : ¬ (c.bMin = lo ∧ c.bMax = hi)) (hh : ∀ p ∈ s.cells.flatten, p.own ≠ .halo) :
    ∃ s' out, s.resizeBox c lo hi = .ok (c.withBox lo hi, s', out) ∧ (ownedOf s' ++ out).Perm (ownedOf s) ∧
      s'.nOwned = (ownedOf s').length ∧ (∀ p ∈ out, ¬ InBox p.pos lo hi) ∧ (∀ p ∈ s'.cells.flatten, InBox p.pos lo hi) ∧ s'.bufs = s.bufs := by
  obtain ⟨mv, h2⟩ := reached H hr
  obtain ⟨s', out, r1, r2, r3, r4, r5, r6, r7⟩ := resize_step H.params h2 H.short hc' hdiff hh
  refine ⟨s', out, r1, r7, r2.cnt, ?_, ?_, r5⟩
  · intro p hp
    have := (List.mem_filter.1 (r3.subset hp)).2
    rw [inBoxB_iff] at this; simpa using this
  · intro p hp
    have := (List.mem_filter.1 (r4.subset hp)).2
    rw [inBoxB_iff] at this; simpa using this

/-- After resizing, histories go on as before: whatever is done next (observing the same obligations, for the new box, and with an
`updateContainer` before particles are moved), particles are conserved as in C25; in particular the next `updateContainer` hands back the
buffered particles that were forgotten. -/
theorem C29_history_continues {c : LHParams} {h : List LHAction} (H : GoodHistory c h) {s : LHState} {outs : List (List Particle)}
    (hr : lhRun c (LHState.init c) h = some (s, outs)) {lo hi : V3 Rat} (hc' : LHParamsOk (c.withBox lo hi))
    (hdiff : ¬ (c.bMin = lo ∧ c.bMax = hi)) (hh : ∀ p ∈ s.cells.flatten, p.own ≠ .halo) :
    ∃ s' out, s.resizeBox c lo hi = .ok (c.withBox lo hi, s', out) ∧
      ∀ h', HistoryOk (c.withBox lo hi) ⟨0, true⟩ s' h' → h.length + h'.length < 2 ^ 64 →
        ∃ s'' outs', lhRun (c.withBox lo hi) s' h' = some (s'', outs') ∧ (ownedOf s'').Perm (wantedRun (c.withBox lo hi) (ownedOf s') h').1 ∧
          List.Forall₂ List.Perm outs' (wantedRun (c.withBox lo hi) (ownedOf s') h').2 ∧ s''.nOwned = (ownedOf s'').length := by
  obtain ⟨mv, h2⟩ := reached H hr
  obtain ⟨s', out, r1, r2, r3, r4, r5, r6, r7⟩ := resize_step H.params h2 H.short hc' hdiff hh
  refine ⟨s', out, r1, fun h' hok hl => ?_⟩
  have r2' : HInv (c.withBox lo hi) ⟨0, true⟩ h.length s' := { r2 with moves := Nat.zero_le _ }
  obtain ⟨s'', outs', a1, ⟨mv', a2⟩, a3, a4⟩ := lhRun_spec hc' h' r2' hl hok
  exact ⟨s'', outs', a1, a3, a4, a2.cnt⟩

/-! ### Examples -/

/-- The new box of the examples. -/
def exLo : V3 Rat := ⟨1/2, 0, 0⟩
def exHi : V3 Rat := ⟨3/2, 1, 1⟩

theorem exNewBox : LHParamsOk (exParams.withBox exLo exHi) ∧ ¬ (exParams.bMin = exLo ∧ exParams.bMax = exHi) := by
  refine ⟨⟨⟨?_, ?_, ?_, ?_, ?_⟩, ?_, ?_, ?_, ?_⟩, by decide +kernel⟩ <;> norm_num [exParams, LHParams.skin, exLo, exHi]

/-- Two particles in the container. -/
def exTwo : List LHAction := [.add 0 ⟨1, ⟨19/20, 1/2, 1/2⟩, .owned⟩, .add 1 ⟨2, ⟨1/4, 1/2, 1/2⟩, .owned⟩]

theorem exTwo_good : GoodHistory exParams exTwo :=
  ⟨exParams_ok, ⟨(by decide : 0 < 2), fun _ _ => ⟨(by decide : 1 < 2), fun _ _ => trivial⟩⟩, by decide⟩

theorem exIn1 : inBoxB (⟨19/20, 1/2, 1/2⟩ : V3 Rat) exParams.bMin exParams.bMax = true := by decide +kernel
theorem exIn2 : inBoxB (⟨1/4, 1/2, 1/2⟩ : V3 Rat) exParams.bMin exParams.bMax = true := by decide +kernel

/-- A case that meets the hypotheses: of two particles in the container, resizing hands back the one now outside. -/
example : ∃ s outs s' out, lhRun exParams (LHState.init exParams) exTwo = some (s, outs) ∧
    s.resizeBox exParams exLo exHi = .ok (exParams.withBox exLo exHi, s', out) ∧
    out.Perm [⟨2, ⟨1/4, 1/2, 1/2⟩, .owned⟩] ∧ (ownedOf s').Perm [⟨1, ⟨19/20, 1/2, 1/2⟩, .owned⟩] := by
  obtain ⟨s, outs, h1, h2, -⟩ := C25_particles_conserved exTwo_good
  have hs := h1
  simp only [exTwo, lhRun, lhStep, LHState.addParticle, exIn1, exIn2, Option.map_some, Option.some.injEq, Prod.mk.injEq,
    Bool.true_eq_false, if_false] at hs
  have hcells : s.cells.flatten.Perm [⟨1, ⟨19/20, 1/2, 1/2⟩, .owned⟩, ⟨2, ⟨1/4, 1/2, 1/2⟩, .owned⟩] := by
    rw [← hs.1]
    show (lcAdd exParams.block (lcAdd exParams.block (LHState.init exParams).cells ⟨1, ⟨19/20, 1/2, 1/2⟩, .owned⟩) ⟨2, ⟨1/4, 1/2, 1/2⟩, .owned⟩).flatten.Perm _
    refine (lcAdd_perm exParams_ok (by rw [lcAdd_length]; simp [LHState.init]) _).trans ?_
    refine ((lcAdd_perm exParams_ok (by simp [LHState.init]) _).append_right _).trans ?_
    rw [show (LHState.init exParams).cells.flatten = [] from replicate_flatten _]
    exact List.Perm.refl _
  have hb : s.bufs.flatten = [] := by rw [← hs.1]; exact replicate_flatten _
  obtain ⟨s', out, r1, r2, r3⟩ := C29_resize_exact_partial exTwo_good h1 exNewBox.1 exNewBox.2
    (fun p hp ho => by
      have := hcells.subset hp
      simp only [List.mem_cons, List.not_mem_nil, or_false] at this
      rcases this with rfl | rfl <;> cases ho) hb
  have hw : (wantedRun exParams [] exTwo).1 = [⟨1, ⟨19/20, 1/2, 1/2⟩, .owned⟩, ⟨2, ⟨1/4, 1/2, 1/2⟩, .owned⟩] := by decide +kernel
  rw [hw] at h2
  refine ⟨s, outs, s', out, h1, r1, r2.trans ((h2.filter _).trans ?_), r3.trans ((h2.filter _).trans ?_)⟩
  · exact List.Perm.of_eq (by decide +kernel)
  · exact List.Perm.of_eq (by decide +kernel)

/-- A particle added while lists are valid. -/
def exBuffered : List LHAction := [.compute, .add 1 ⟨2, ⟨1/4, 1/2, 1/2⟩, .owned⟩]

theorem exBuffered_good : GoodHistory exParams exBuffered :=
  ⟨exParams_ok, ⟨trivial, fun _ _ => ⟨(by decide : 1 < 2), fun _ _ => trivial⟩⟩, by decide⟩

/-- C29 fails for buffered particles: a particle that was added since the lists were built is not handed back although it is outside the new
box; AutoPas keeps it. -/
theorem C29_violated_buffers : ∃ s outs s', lhRun exParams (LHState.init exParams) exBuffered = some (s, outs) ∧
    s.resizeBox exParams exLo exHi = .ok (exParams.withBox exLo exHi, s', []) ∧
    ∃ p ∈ ownedOf s', ¬ InBox p.pos exLo exHi := by
  obtain ⟨s, outs, h1, h2, -⟩ := C25_particles_conserved exBuffered_good
  have hs := h1
  simp only [exBuffered, lhRun, lhStep, LHState.addParticle, LHState.compute, exIn2, Option.map_some, Option.some.injEq, Prod.mk.injEq,
    Bool.true_eq_false, if_false, if_true] at hs
  have hcells : s.cells.flatten = [] := by rw [← hs.1]; exact replicate_flatten _
  have hw : (wantedRun exParams [] exBuffered).1 = [⟨2, ⟨1/4, 1/2, 1/2⟩, .owned⟩] := by decide +kernel
  rw [hw] at h2
  obtain ⟨mv, hi⟩ := reached exBuffered_good h1
  obtain ⟨s', out, r1, r2, r3, r4, r5, r6, r7⟩ := resize_step exParams_ok hi exBuffered_good.short exNewBox.1 exNewBox.2
    (fun p hp => by rw [hcells] at hp; cases hp)
  rw [hcells] at r3
  have hout : out = [] := List.Perm.eq_nil (by simpa using r3)
  subst hout
  refine ⟨s, outs, s', h1, r1, ⟨2, ⟨1/4, 1/2, 1/2⟩, .owned⟩, ?_, by decide +kernel⟩
  rw [List.append_nil] at r7
  exact (r7.trans h2).symm.subset (List.mem_singleton.2 rfl)

end Verif
