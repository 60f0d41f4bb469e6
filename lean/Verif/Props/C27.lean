import Verif.Props.C25
/-!
# C27 — leaving particles are exactly the owned particles outside the box
-/
namespace Verif
open Spec

/-- C27. In every state reached by a history, `updateContainer` ends and hands back, as a multiset, exactly the owned particles outside the
box, and keeps exactly the owned particles inside; whether the lists are kept or everything is rebuilt (`expire` and the state decide), and
in whatever order the threads' loops over the volumes around the box are done. -/
theorem C27_leaving_exact {c : LHParams} {h : List LHAction} (H : GoodHistory c h) {s : LHState} {outs : List (List Particle)}
    (hr : lhRun c (LHState.init c) h = some (s, outs)) (expire : Bool) {order : List ((V3 Rat × V3 Rat) × Nat)}
    (ho : order.Perm ((haloVolumes c).flatMap fun v => (List.range c.numThreads).map fun t => (v, t))) :
    ∃ s' out, s.updateContainer c expire order = some (s', out) ∧
      out.Perm ((ownedOf s).filter fun p => ¬ InBox p.pos c.bMin c.bMax) ∧
      (ownedOf s').Perm ((ownedOf s).filter fun p => InBox p.pos c.bMin c.bMax) := by
  obtain ⟨s0, outs', h1, ⟨mv, h2⟩, -⟩ := lhRun_spec H.params h (init_inv c) (by have := H.short; omega) H.obligations
  rw [hr] at h1
  simp only [Option.some.injEq, Prod.mk.injEq] at h1
  obtain ⟨rfl, -⟩ := h1
  obtain ⟨s', out, u1, -, u3, u4, -⟩ := update_step H.params h2 (by have := H.short; omega) expire ho
  refine ⟨s', out, u1, u4.trans ?_, u3.trans ?_⟩
  · rw [List.filter_congr]
    intro p _
    rw [inBoxB_iff]; simp
  · rw [List.filter_congr (fun p _ => inBoxB_iff _ _ _)]

/-- The first four operations of C25's example: two particles, the lists are built, both particles move by the skin per step. -/
theorem exHistory_prefix : GoodHistory exParams (exHistory.take 4) := by
  obtain ⟨h1, h2, -⟩ := exHistory_good
  refine ⟨h1, ?_, by decide⟩
  refine ⟨h2.1, fun r1 e1 => ⟨(h2.2 r1 e1).1, fun r2 e2 => ⟨trivial, fun r3 e3 => ⟨?_, fun _ _ => trivial⟩⟩⟩⟩
  exact (((h2.2 r1 e1).2 r2 e2).2 r3 e3).1

/-- Both modes occur in the example: the particle that moved out of the box is handed back, the other one is kept. -/
example (expire : Bool) : ∃ s outs s' out, lhRun exParams (LHState.init exParams) (exHistory.take 4) = some (s, outs) ∧
    listsStillValid exParams s expire = !expire ∧ s.updateContainer exParams expire exOrder = some (s', out) ∧
    out.Perm [⟨1, ⟨21/20, 1/2, 1/2⟩, .owned⟩] ∧ (ownedOf s').Perm [⟨2, ⟨7/20, 1/2, 1/2⟩, .owned⟩] := by
  obtain ⟨s, outs, h1, h2, -⟩ := C25_particles_conserved exHistory_prefix
  obtain ⟨s', out, u1, u2, u3⟩ := C27_leaving_exact exHistory_prefix h1 expire (List.Perm.refl _ : exOrder.Perm _)
  have hw : (wantedRun exParams [] (exHistory.take 4)).1 =
      [⟨1, ⟨21/20, 1/2, 1/2⟩, .owned⟩, ⟨2, ⟨7/20, 1/2, 1/2⟩, .owned⟩] := by decide +kernel
  rw [hw] at h2
  refine ⟨s, outs, s', out, h1, ?_, u1, u2.trans ((h2.filter _).trans ?_), u3.trans ((h2.filter _).trans ?_)⟩
  · have e1 : inBoxB (⟨19/20, 1/2, 1/2⟩ : V3 Rat) exParams.bMin exParams.bMax = true := by decide +kernel
    have e2 : inBoxB (⟨1/4, 1/2, 1/2⟩ : V3 Rat) exParams.bMin exParams.bMax = true := by decide +kernel
    have h1' := h1
    simp only [exHistory, List.take, lhRun, lhStep, LHState.addParticle, e1, e2, Option.map_some, Option.some.injEq, Prod.mk.injEq,
      Bool.true_eq_false, if_false] at h1'
    rw [← h1'.1]
    simp only [listsStillValid, LHState.move, LHState.compute]
    cases expire <;> rfl
  · exact List.Perm.of_eq (by decide +kernel)
  · exact List.Perm.of_eq (by decide +kernel)

end Verif
