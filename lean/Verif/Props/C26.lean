import Verif.Props.C25
/-!
# C26 — reported particle numbers are right
-/
namespace Verif
open Spec

/-- C26. After every history the counter that `getNumberOfParticles(owned)` returns is the number of owned particles stored. -/
theorem C26_owned_count {c : LHParams} {h : List LHAction} (H : GoodHistory c h) {s : LHState} {outs : List (List Particle)}
    (hr : lhRun c (LHState.init c) h = some (s, outs)) : s.nOwned = (ownedOf s).length := by
  obtain ⟨s', outs', h1, ⟨mv, h2⟩, -⟩ := lhRun_spec H.params h (init_inv c) (by have := H.short; omega) H.obligations
  rw [hr] at h1
  simp only [Option.some.injEq, Prod.mk.injEq] at h1
  rw [h1.1]
  exact h2.cnt

/-- The history of C25's example ends with one owned particle, and one is reported. -/
example : ∃ s outs, lhRun exParams (LHState.init exParams) exHistory = some (s, outs) ∧ s.nOwned = 1 := by
  obtain ⟨s, outs, h1, h2, -⟩ := C25_particles_conserved exHistory_good
  refine ⟨s, outs, h1, ?_⟩
  rw [C26_owned_count exHistory_good h1, h2.length_eq]
  have hw : (wantedRun exParams [] exHistory).1 = [⟨3, ⟨1/2, 1/2, 1/2⟩, .owned⟩] := by decide +kernel
  rw [hw]; rfl

end Verif
