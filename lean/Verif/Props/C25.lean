import Verif.Lemmas.LCHistory
/-!
# C25 — no particle is lost or duplicated
-/
namespace Verif
open Spec

/-- A history: the parameters make sense, AutoPas starts empty, the user observes their obligations, and fewer than 2^64 operations
are done (so that no counter or container size overflows). -/
structure GoodHistory (c : LHParams) (h : List LHAction) : Prop where
  params : LHParamsOk c
  obligations : HistoryOk c ⟨0, false⟩ (LHState.init c) h
  short : h.length < 2 ^ 64

theorem ownedOf_init (c : LHParams) : ownedOf (LHState.init c) = [] := by
  have hn : ∀ m, (List.replicate m ([] : List Particle)).flatten = [] := by
    intro m
    induction m with
    | zero => rfl
    | succ m ih => rw [List.replicate_succ, List.flatten_cons, ih]; rfl
  simp only [ownedOf, LHState.init, hn]
  rfl

/-- C25. After every history of additions, halo additions, moves, deletion loops, container updates, interaction computations
and clearings, the owned particles stored by AutoPas (container and insertion buffers together) are, as a multiset, exactly what
results from doing the operations to the multiset itself; and each operation hands back exactly what it is supposed to. No operation
fails to end. -/
theorem C25_particles_conserved {c : LHParams} {h : List LHAction} (H : GoodHistory c h) :
    ∃ s outs, lhRun c (LHState.init c) h = some (s, outs) ∧ (ownedOf s).Perm (wantedRun c [] h).1 ∧
      List.Forall₂ List.Perm outs (wantedRun c [] h).2 := by
  obtain ⟨s, outs, h1, -, h3, h4⟩ := lhRun_spec H.params h (init_inv c) (by have := H.short; omega) H.obligations
  rw [ownedOf_init] at h3 h4
  exact ⟨s, outs, h1, h3, h4⟩

/-- The parameters of the examples: the unit box, interaction length 1, skin 1/10 per step, two threads. -/
def exParams : LHParams := ⟨⟨0, 0, 0⟩, ⟨1, 1, 1⟩, 1, 1, 1/10, 5, 2⟩

theorem exParams_ok : LHParamsOk exParams := by
  refine ⟨⟨?_, ?_, ?_, ?_, ?_⟩, ?_, ?_, ?_, ?_⟩ <;> norm_num [exParams, LHParams.skin]

/-- Every loop of the threads over the six volumes, thread by thread. -/
def exOrder : List ((V3 Rat × V3 Rat) × Nat) := (haloVolumes exParams).flatMap fun v => (List.range exParams.numThreads).map fun t => (v, t)

/-- Two particles go into the container, one leaves again through the upper x face while the lists are kept, a third one is put into a
buffer, one is deleted. -/
def exHistory : List LHAction :=
  [.add 0 ⟨1, ⟨19/20, 1/2, 1/2⟩, .owned⟩, .add 1 ⟨2, ⟨1/4, 1/2, 1/2⟩, .owned⟩, .compute,
   .move fun p => ⟨p.pos.x + 1/10, p.pos.y, p.pos.z⟩, .update false exOrder, .add 1 ⟨3, ⟨1/2, 1/2, 1/2⟩, .owned⟩, .compute,
   .delete ibOwned fun p => p.id == 2]

theorem exHistory_good : GoodHistory exParams exHistory := by
  refine ⟨exParams_ok, ?_, by decide⟩
  have hm : ∀ p : Particle, Displaced exParams.skinPerTimestep ((fun p : Particle => (⟨p.pos.x + 1/10, p.pos.y, p.pos.z⟩ : V3 Rat)) p) p.pos := by
    intro p
    refine ⟨?_, ?_, ?_⟩
    · show |p.pos.x + 1/10 - p.pos.x| ≤ 1/10
      rw [add_sub_cancel_left]; norm_num
    · show |p.pos.y - p.pos.y| ≤ 1/10
      rw [sub_self]; norm_num
    · show |p.pos.z - p.pos.z| ≤ 1/10
      rw [sub_self]; norm_num
  refine ⟨(by decide : 0 < 2), fun r1 _ => ⟨(by decide : 1 < 2), fun r2 _ => ⟨trivial, fun r3 _ => ⟨⟨rfl, fun p _ => hm p⟩, fun r4 _ => ?_⟩⟩⟩⟩
  exact ⟨List.Perm.refl _, fun r5 _ => ⟨(by decide : 1 < 2), fun r6 _ => ⟨trivial, fun r7 _ => ⟨rfl, fun _ _ => trivial⟩⟩⟩⟩

/-- A history that meets the hypotheses: of the three particles put in, the first is handed back by the update, the second is deleted, the
third is what is left. -/
example : ∃ s outs, lhRun exParams (LHState.init exParams) exHistory = some (s, outs) ∧
    (ownedOf s).Perm [⟨3, ⟨1/2, 1/2, 1/2⟩, .owned⟩] ∧
    List.Forall₂ List.Perm outs [[], [], [], [], [⟨1, ⟨21/20, 1/2, 1/2⟩, .owned⟩], [], [], []] := by
  have h := C25_particles_conserved exHistory_good
  have hw : wantedRun exParams [] exHistory = ([⟨3, ⟨1/2, 1/2, 1/2⟩, .owned⟩],
      [[], [], [], [], [⟨1, ⟨21/20, 1/2, 1/2⟩, .owned⟩], [], [], []]) := by
    decide +kernel
  rw [hw] at h
  exact h

end Verif
