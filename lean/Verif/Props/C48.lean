import Verif.Props.C27
import Verif.Lemmas.ExampleStore
/-!
# C48 — no halo particle survives updateContainer
-/
namespace Verif
open Spec

/-- C48 (partial). In every state reached by a history, `updateContainer` empties all halo buffers and reports zero halo particles; every halo
particle still stored in the container afterwards is further than the interaction length away from the box, and if the lists are rebuilt none
is stored at all. Missing: the far halo particles in the mode that keeps the lists, see `C48_far_halo_survives`. -/
theorem C48_near_halos_removed_partial {c : LHParams} {h : List LHAction} (H : GoodHistory c h) {s : LHState} {outs : List (List Particle)}
    (hr : lhRun c (LHState.init c) h = some (s, outs)) (expire : Bool) {order : List ((V3 Rat × V3 Rat) × Nat)}
    (ho : order.Perm ((haloVolumes c).flatMap fun v => (List.range c.numThreads).map fun t => (v, t))) :
    ∃ s' out, s.updateContainer c expire order = some (s', out) ∧ s'.haloBufs.flatten = [] ∧ s'.nHalo = 0 ∧
      (∀ p ∈ s'.cells.flatten, p.own = .halo → ¬ InBox p.pos (c.bMin.addScalar (-c.il)) (c.bMax.addScalar c.il)) ∧
      (listsStillValid c s expire = false → ∀ p ∈ s'.cells.flatten, p.own ≠ .halo) := by
  obtain ⟨s0, outs', h1, ⟨mv, h2⟩, -⟩ := lhRun_spec H.params h (init_inv c) (by have := H.short; omega) H.obligations
  rw [hr] at h1
  simp only [Option.some.injEq, Prod.mk.injEq] at h1
  obtain ⟨rfl, -⟩ := h1
  obtain ⟨s', out, u1, -, -, -, u5, u6, u7, u8, u9⟩ := update_step H.params h2 (by have := H.short; omega) expire ho
  exact ⟨s', out, u1, u5, u6, u7, fun hv p hp ho => by rw [u9 hv p hp] at ho; cases ho⟩

/-- C48 fails for halo particles that were handed over further than the interaction length away from the box: when the lists are kept, they all
stay in the container, and yet zero halo particles are reported. -/
theorem C48_far_halo_survives {c : LHParams} {h : List LHAction} (H : GoodHistory c h) {s : LHState} {outs : List (List Particle)}
    (hr : lhRun c (LHState.init c) h = some (s, outs)) (expire : Bool) (hv : listsStillValid c s expire = true)
    {order : List ((V3 Rat × V3 Rat) × Nat)}
    (ho : order.Perm ((haloVolumes c).flatMap fun v => (List.range c.numThreads).map fun t => (v, t))) :
    ∃ s' out, s.updateContainer c expire order = some (s', out) ∧ s'.nHalo = 0 ∧
      ∀ p ∈ s.cells.flatten, p.own = .halo → ¬ InBox p.pos (c.bMin.addScalar (-c.il)) (c.bMax.addScalar c.il) → p ∈ s'.cells.flatten := by
  obtain ⟨s0, outs', h1, ⟨mv, h2⟩, -⟩ := lhRun_spec H.params h (init_inv c) (by have := H.short; omega) H.obligations
  rw [hr] at h1
  simp only [Option.some.injEq, Prod.mk.injEq] at h1
  obtain ⟨rfl, -⟩ := h1
  obtain ⟨s', out, u1, -, -, -, u5, u6, u7, u8, u9⟩ := update_step H.params h2 (by have := H.short; omega) expire ho
  exact ⟨s', out, u1, u6, fun p hp _ hfar => u8 hv p hp hfar⟩

/-- A halo particle close to the box and one far away are handed over, and lists are built. -/
def haloHistory : List LHAction :=
  [.addHalo 0 ⟨1, ⟨3/2, 1/2, 1/2⟩, .halo⟩, .addHalo 0 ⟨2, ⟨5/2, 1/2, 1/2⟩, .halo⟩, .compute]

theorem haloHistory_good : GoodHistory exParams haloHistory := by
  refine ⟨exParams_ok, ?_, by decide⟩
  refine ⟨⟨(by decide : 0 < 2), fun hx => by cases hx⟩, fun r1 e1 => ⟨⟨(by decide : 0 < 2), fun hx => ?_⟩, fun r2 _ => ⟨trivial, fun _ _ => trivial⟩⟩⟩
  exfalso
  have hb : inBoxB (⟨3/2, 1/2, 1/2⟩ : V3 Rat) exParams.bMin exParams.bMax = false := by decide +kernel
  simp only [lhStep, LHState.addHaloParticle, hb, Bool.false_eq_true, if_false, Option.some.injEq] at e1
  rw [← e1] at hx
  cases hx

/-- The violation occurs: after the next update, without a rebuild, a halo particle is still stored although zero are reported. -/
theorem C48_violated : ∃ s outs s' out, lhRun exParams (LHState.init exParams) haloHistory = some (s, outs) ∧
    s.updateContainer exParams false exOrder = some (s', out) ∧ s'.nHalo = 0 ∧ ∃ p ∈ s'.cells.flatten, p.own = .halo := by
  obtain ⟨s, outs, h1, -, -⟩ := C25_particles_conserved haloHistory_good
  have b1 : inBoxB (⟨3/2, 1/2, 1/2⟩ : V3 Rat) exParams.bMin exParams.bMax = false := by decide +kernel
  have b2 : inBoxB (⟨5/2, 1/2, 1/2⟩ : V3 Rat) exParams.bMin exParams.bMax = false := by decide +kernel
  have hs := h1
  simp only [haloHistory, lhRun, lhStep, LHState.addHaloParticle, b1, b2, Option.map_some, Option.some.injEq, Prod.mk.injEq,
      Bool.false_eq_true, if_false] at hs
  have hv : listsStillValid exParams s false = true := by
    rw [← hs.1]
    simp only [listsStillValid, LHState.compute]
    rfl
  obtain ⟨s', out, u1, u2, u3⟩ := C48_far_halo_survives haloHistory_good h1 false hv (List.Perm.refl _ : exOrder.Perm _)
  refine ⟨s, outs, s', out, h1, u1, u2, ⟨2, ⟨5/2, 1/2, 1/2⟩, .halo⟩, u3 _ ?_ rfl (by decide +kernel), rfl⟩
  rw [← hs.1]
  have hlen : (LHState.init exParams).cells.length = exParams.block.numCells := by simp [LHState.init]
  show _ ∈ (lcAdd exParams.block (lcAdd exParams.block (LHState.init exParams).cells ⟨1, ⟨3/2, 1/2, 1/2⟩, .halo⟩) ⟨2, ⟨5/2, 1/2, 1/2⟩, .halo⟩).flatten
  refine (lcAdd_perm exParams_ok ?_ _).symm.subset ?_
  · rw [lcAdd_length]; exact hlen
  · simp

end Verif
