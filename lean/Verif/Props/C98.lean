import Verif.Lemmas.SPH
import Verif.Props.C74
/-!
# C98 — smoothed particle hydrodynamics: the kernel and the density

The kernel function of the library is the normalised cubic spline: positive inside the support radius, zero outside, decreasing, with integral
one over the space; `gradW` is its gradient up to the regularisation of the direction. With it, `computeInteractions` with the density functor
yields, for every history of operations, traversal, data layout, Newton 3 setting and order of the kernel calls, the textbook density.
-/
namespace Verif
open Spec

/-- C98, kernel: it is not negative, and positive exactly for distances smaller than 2.5 smoothing lengths; it decreases with the distance and
does not depend on the direction. -/
theorem C98_kernel {h : ℝ} (hh : 0 < h) (a b : V3 ℝ) :
    0 ≤ sphWVec a h ∧ (0 < sphWVec a h ↔ len a < 5 / 2 * h) ∧ (len a ≤ len b → sphWVec b h ≤ sphWVec a h) := by
  have hp : 0 < supportOf h := by unfold supportOf; linarith
  have e : ∀ d, sphWVec d h = spline (supportOf h) (len d) := by
    intro d
    unfold sphWVec
    rw [inner_self_eq, sphW_eq hh (normSq_nonneg d)]
    rfl
  rw [e, e]
  refine ⟨?_, ⟨?_, ?_⟩, spline_anti hp (len_nonneg a)⟩
  · rcases lt_or_ge (len a) (supportOf h) with h1 | h1
    · exact (spline_pos hp (len_nonneg a) h1).le
    · rw [spline_zero hp h1]
  · intro h1
    by_contra h2
    rw [spline_zero hp (not_lt.1 h2)] at h1
    exact lt_irrefl _ h1
  · intro h1
    exact spline_pos hp (len_nonneg a) h1

/-- C98, normalisation: the integral of the kernel over the space is one. -/
theorem C98_kernel_normalised {h : ℝ} (hh : 0 < h) : ∫ p : EuclideanSpace ℝ (Fin 3), sphWVec ⟨p 0, p 1, p 2⟩ h = 1 := by
  have hp : 0 < supportOf h := by unfold supportOf; linarith
  rw [← spline_integral hp]
  congr 1
  funext p
  unfold sphWVec
  rw [inner_self_eq, sphW_eq hh (normSq_nonneg _), EuclideanSpace.norm_eq]
  congr 2
  unfold normSq
  simp only [Fin.sum_univ_three, Real.norm_eq_abs, sq_abs]

/-- C98, gradient: away from the origin, the kernel has a gradient `G`, and `gradW` is `G` times a factor that only differs from one by the
regularisation of the division by the distance. -/
theorem C98_gradient {h : ℝ} (hh : 0 < h) {d : V3 ℝ} (hd : d ≠ 0) :
    ∃ G : V3 ℝ, (∀ u : V3 ℝ, HasDerivAt (fun t => sphWVec (d + u.scale t) h) (G.inner u) 0) ∧
      sphGradW d h = G.scale (len d / (len d + 4 / 10000000)) := by
  have hp : 0 < supportOf h := by unfold supportOf; linarith
  have hn : normSq d ≠ 0 := by
    intro h0
    apply hd
    unfold normSq at h0
    have := mul_self_nonneg d.x
    have := mul_self_nonneg d.y
    have := mul_self_nonneg d.z
    refine V3.ext' ?_ ?_ ?_ <;> simp only [V3.zero_x, V3.zero_y, V3.zero_z] <;> nlinarith
  have hl : 0 < len d := Real.sqrt_pos.2 (lt_of_le_of_ne (normSq_nonneg d) (Ne.symm hn))
  refine ⟨d.scale (splineSlope (supportOf h) (len d) / len d), fun u => ?_, ?_⟩
  · have e : (fun t => sphWVec (d + u.scale t) h) = fun t => spline (supportOf h) (len (d + u.scale t)) := by
      funext t
      unfold sphWVec
      rw [inner_self_eq, sphW_eq hh (normSq_nonneg _)]
      rfl
    rw [e]
    have h0 : len (d + u.scale 0) = len d := by
      congr 1
      refine V3.ext' ?_ ?_ ?_ <;> simp
    have h1 := spline_hasDerivAt hp (len d)
    rw [← h0] at h1
    refine (h1.comp (0 : ℝ) (len_hasDerivAt hn u)).congr_deriv ?_
    rw [h0]
    unfold V3.inner
    simp only [V3.scale_x, V3.scale_y, V3.scale_z]
    field_simp
  · rw [sphGradW_eq hh]
    unfold gradKernel
    have : len d + 4 / 10000000 ≠ 0 := by positivity
    refine V3.ext' ?_ ?_ ?_ <;> simp only [V3.scale_x, V3.scale_y, V3.scale_z] <;> field_simp

section
variable {c : LHParams} {h : List LHAction} {s : LHState} {t : LCTraversal} {f : CellFunctorCfg Slot} {jobs : List (KernelCall Slot)}

/-- C98, density: if the support of no particle is larger than the cutoff, the density of every owned particle is the sum of mass times kernel
over all particles, itself included. The kernel calls may come in any order. -/
theorem C98_density (H : ComputesAfter c h s) (ht : t.Applicable c.block.dims c.block.cellLength c.il) (hf : SlotFunctor c t f)
    (hp : jobs.Perm (s.kernels c t f)) (D : SPHData) (hpos : ∀ id, 0 < D.smth id) (hcut : ∀ id, 5 / 2 * D.smth id ≤ c.cutoff)
    (a : Slot) (ha : a ∈ s.slots) (hao : a.own = .owned) :
    sphDensity.compute D.attr (sphSelfDensity D.attr) jobs a = (s.slots.map fun b => densityFrom (D.attr a) (D.attr b)).sum := by
  have hn : s.slots.Nodup := (slots_input s H.ready.bl).nodup
  have h0 := cutoff_nonneg H.ready.params
  have := gCompute_complete sphDensity_adds (H.ready.complete ht hf) hn (attr := D.attr) (fun p => hpos _) hp (sphSelfDensity D.attr) (by
    intro a ha b hb hab hz
    unfold densityG densityFrom
    split
    · rfl
    · rcases hz with hz | hz
      · exact if_pos hz
      · split
        · rfl
        · have hs : 0 < supportOf (D.attr a).smth := by
            have := hpos a.particle.id
            show 0 < 5 / 2 * D.smth a.particle.id
            linarith
          have hle : supportOf (D.attr a).smth ≤ len ((D.attr a).pos - (D.attr b).pos) := support_le h0 (hcut a.particle.id) hz
          rw [spline_zero hs hle, mul_zero]) a ha hao
  rw [Function.id_comp] at this
  rw [this, id, sphSelfDensity_eq _ _ (hpos _), ← sum_others (fun b => densityFrom (D.attr a) (D.attr b)) hn ha]
  congr 3
  funext b
  unfold densityG
  exact if_neg (by show a.own ≠ _; rw [hao]; decide)

/-- C98, layout: the density functor yields the same on the structures of arrays as on the particles, for any kernel calls with any lists of
different particles, and in any order of the kernel calls. -/
theorem C98_layout {P : Type} [DecidableEq P] [Inhabited P] (attr : P → SPHAttr) (hpos : ∀ p, 0 < (attr p).smth) (start : P → ℝ)
    (jobs : List (KernelCall P)) (hj : ∀ k ∈ jobs, k.Lists ∧ k.Apart) (order : List (PairCall P)) (ho : order.Perm (jobs.flatMap KernelCall.calls)) :
    sphDensity.compute attr start jobs = sphDensity.compute attr start (order.map KernelCall.aos) := by
  have e1 := gCompute_eq sphDensity_adds hpos jobs hj start
  have e2 := gCompute_eq sphDensity_adds hpos (order.map KernelCall.aos) (by
    intro k hk
    obtain ⟨c, -, rfl⟩ := List.mem_map.1 hk
    exact ⟨trivial, trivial⟩) start
  rw [Function.id_comp] at e1 e2
  rw [e1, e2, List.flatMap_map]
  congr 2
  have : (order.flatMap fun a => (KernelCall.aos a).calls) = order := by
    show (order.flatMap fun a => [a]) = order
    simp
  rw [this]
  refine List.Perm.sum_eq (List.Perm.map _ ?_)
  unfold contributions
  exact (ho.flatMap_right _).symm

end

/-! Non-vacuity: three particles with smoothing lengths 1/5, the support radius is the cutoff 1/2. -/

/-- Three equal particles at rest. -/
noncomputable def exSPH : SPHData := ⟨fun _ => 0, fun _ => 2, fun _ => 1 / 5, fun _ => 1, fun _ => 1, fun _ => 1⟩

example (t : LCTraversal) (f : CellFunctorCfg Slot) : ∃ s, ∃ jobs : List (KernelCall Slot), ComputesAfter exParams exLJHistory s ∧ jobs.Perm (s.kernels exParams t f) ∧
    (∀ id, 0 < exSPH.smth id) ∧ (∀ id, 5 / 2 * exSPH.smth id ≤ exParams.cutoff) ∧ (s.slots.filter fun a => a.own = .owned).length = 3 := by
  obtain ⟨s, H, hp⟩ := exLJ_state
  rw [← slots_map] at hp
  refine ⟨s, s.kernels exParams t f, H, List.Perm.refl _, fun _ => by show (0 : ℝ) < 1 / 5; norm_num, fun _ => ?_, ?_⟩
  · have : exParams.cutoff = 1 / 2 := by decide +kernel
    rw [this]
    show (5 / 2 * (1 / 5) : ℝ) ≤ _
    push_cast
    norm_num
  · have : (s.slots.filter fun a => a.own = .owned).length = ((s.slots.map Slot.particle).filter fun p => p.own = .owned).length := by
      rw [List.filter_map, List.length_map]; rfl
    rw [this, (hp.filter _).length_eq]
    decide +kernel

end Verif
