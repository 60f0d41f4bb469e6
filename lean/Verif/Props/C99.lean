import Verif.Props.C98
/-!
# C99 — smoothed particle hydrodynamics: accelerations, heating and signal speed

`computeInteractions` with the hydrodynamic force functor yields, for every history of operations, traversal, data layout, Newton 3 setting and
order of the kernel calls, the textbook accelerations and energy derivatives; momentum and total energy are conserved.

The code only satisfies this if all particles have the same smoothing length: the functor decides with the smoothing length of the first of the
two particles alone whether they interact, so the result depends on the order of the two in the call (`C99_order_matters`), and without
Newton 3 one of the two may feel a force and the other none (`C99_momentum_violated`).
-/
namespace Verif
open Spec

/-- All particles have the smoothing length `h`, whose support is not larger than the cutoff, and positive densities and speeds of sound that
are not negative. -/
structure ValidSPH (c : LHParams) (D : SPHData) (h : ℝ) : Prop where
  positive : 0 < h
  support : 5 / 2 * h ≤ c.cutoff
  smth : ∀ id, D.smth id = h
  density : ∀ id, 0 < D.density id
  soundSpeed : ∀ id, 0 ≤ D.soundSpeed id

section
variable {c : LHParams} {hist : List LHAction} {s : LHState} {t : LCTraversal} {f : CellFunctorCfg Slot} {jobs : List (KernelCall Slot)}
variable {D : SPHData} {h : ℝ}

private theorem compute_at (H : ComputesAfter c hist s) (ht : t.Applicable c.block.dims c.block.cellLength c.il) (hf : SlotFunctor c t f)
    (hp : jobs.Perm (s.kernels c t f)) (V : ValidSPH c D h) (start : Slot → HydroOut) (hs : ∀ a, 0 ≤ (start a).vsigmax)
    (a : Slot) (ha : a ∈ s.slots) (hao : a.own = .owned) :
    sphHydro.compute D.attr start jobs a = hydroφ ((((start a).acc, (start a).engDot, ⟨(start a).vsigmax, hs a⟩) : HydroN) +
      ((s.slots.filter fun b => b ≠ a).map fun b => hydroG h (D.attr a) (D.attr b)).sum) := by
  have hn : s.slots.Nodup := (slots_input s H.ready.bl).nodup
  have h0 := cutoff_nonneg H.ready.params
  exact gCompute_complete (sphHydro_adds V.positive) (H.ready.complete ht hf) hn (attr := D.attr)
    (fun p => ⟨V.smth _, V.density _, V.soundSpeed _⟩) hp (fun a => ((start a).acc, (start a).engDot, ⟨(start a).vsigmax, hs a⟩)) (by
    intro a ha b hb hab hz
    refine hydroG_zero fun hI => ?_
    rcases hz with hz | hz
    · exact hI.2.1 hz
    · exact absurd hI.2.2 (not_lt.2 (support_le h0 V.support hz))) a ha hao

private theorem sum_fst {X : Type} (g : X → HydroN) (l : List X) : ((l.map g).sum).1 = (l.map fun x => (g x).1).sum := by
  induction l with
  | nil => rfl
  | cons x l ih => rw [List.map_cons, List.sum_cons, List.map_cons, List.sum_cons, ← ih]; rfl

private theorem sum_snd {X : Type} (g : X → HydroN) (l : List X) : ((l.map g).sum).2.1 = (l.map fun x => (g x).2.1).sum := by
  induction l with
  | nil => rfl
  | cons x l ih => rw [List.map_cons, List.sum_cons, List.map_cons, List.sum_cons, ← ih]; rfl

private theorem sum_third {X : Type} (g : X → HydroN) (l : List X) : ((l.map g).sum).2.2 = (l.map fun x => (g x).2.2).sum := by
  induction l with
  | nil => rfl
  | cons x l ih => rw [List.map_cons, List.sum_cons, List.map_cons, List.sum_cons, ← ih]; rfl

/-- C99, accelerations and heating: what the functor adds for every owned particle is the sum over all other particles. -/
theorem C99_forces_partial (H : ComputesAfter c hist s) (ht : t.Applicable c.block.dims c.block.cellLength c.il) (hf : SlotFunctor c t f)
    (hp : jobs.Perm (s.kernels c t f)) (V : ValidSPH c D h) (start : Slot → HydroOut) (hs : ∀ a, 0 ≤ (start a).vsigmax)
    (a : Slot) (ha : a ∈ s.slots) (hao : a.own = .owned) :
    (sphHydro.compute D.attr start jobs a).acc = (start a).acc +
        ((s.slots.filter fun b => b ≠ a).map fun b => hydroAcc h (D.attr a) (D.attr b)).sum ∧
      (sphHydro.compute D.attr start jobs a).engDot = (start a).engDot +
        ((s.slots.filter fun b => b ≠ a).map fun b => hydroHeat h (D.attr a) (D.attr b)).sum := by
  rw [compute_at H ht hf hp V start hs a ha hao]
  refine ⟨?_, ?_⟩
  · show _ + (List.sum (α := HydroN) _).1 = _
    rw [sum_fst]
    rfl
  · show _ + (List.sum (α := HydroN) _).2.1 = _
    rw [sum_snd]
    rfl

private theorem sig_le (x : Sig) (l : List Sig) : x.val ≤ (x + l.sum).val ∧ (∀ y ∈ l, y.val ≤ (x + l.sum).val) ∧
    ((x + l.sum).val = x.val ∨ ∃ y ∈ l, (x + l.sum).val = y.val) := by
  induction l generalizing x with
  | nil => simp
  | cons z l ih =>
    obtain ⟨h1, h2, h3⟩ := ih (x + z)
    rw [List.sum_cons, ← add_assoc]
    have hx : x.val ≤ (x + z).val := le_max_left _ _
    have hz : z.val ≤ (x + z).val := le_max_right _ _
    refine ⟨hx.trans h1, ?_, ?_⟩
    · intro y hy
      rcases List.mem_cons.1 hy with rfl | hy
      · exact hz.trans h1
      · exact h2 y hy
    · rcases h3 with h3 | ⟨y, hy, h3⟩
      · rcases max_choice x.val z.val with h4 | h4
        · exact .inl (h3.trans h4)
        · exact .inr ⟨z, List.mem_cons_self, h3.trans h4⟩
      · exact .inr ⟨y, List.mem_cons_of_mem _ hy, h3⟩

/-- C99, signal speed: the stored maximum grows to the largest signal speed between the particle and one it interacts with. -/
theorem C99_signal_speed_partial (H : ComputesAfter c hist s) (ht : t.Applicable c.block.dims c.block.cellLength c.il) (hf : SlotFunctor c t f)
    (hp : jobs.Perm (s.kernels c t f)) (V : ValidSPH c D h) (start : Slot → HydroOut) (hs : ∀ a, 0 ≤ (start a).vsigmax)
    (a : Slot) (ha : a ∈ s.slots) (hao : a.own = .owned) :
    let v := (sphHydro.compute D.attr start jobs a).vsigmax
    (start a).vsigmax ≤ v ∧
      (∀ b ∈ s.slots, b ≠ a → HydroInteract h (D.attr a) (D.attr b) → signalSpeed (D.attr a) (D.attr b) ≤ v) ∧
      (v = (start a).vsigmax ∨ ∃ b ∈ s.slots, b ≠ a ∧ HydroInteract h (D.attr a) (D.attr b) ∧ v = signalSpeed (D.attr a) (D.attr b)) := by
  intro v
  have hv : v = ((⟨(start a).vsigmax, hs a⟩ : Sig) + ((s.slots.filter fun b => b ≠ a).map fun b => (hydroG h (D.attr a) (D.attr b)).2.2).sum).val := by
    show (sphHydro.compute D.attr start jobs a).vsigmax = _
    rw [compute_at H ht hf hp V start hs a ha hao, ← sum_third]
    rfl
  obtain ⟨h1, h2, h3⟩ := sig_le ⟨(start a).vsigmax, hs a⟩ ((s.slots.filter fun b => b ≠ a).map fun b => (hydroG h (D.attr a) (D.attr b)).2.2)
  rw [← hv] at h1 h2 h3
  have hval : ∀ b, HydroValid h (D.attr b) := fun b => ⟨V.smth _, V.density _, V.soundSpeed _⟩
  have hG : ∀ b, HydroInteract h (D.attr a) (D.attr b) → ((hydroG h (D.attr a) (D.attr b)).2.2).val = signalSpeed (D.attr a) (D.attr b) := by
    intro b hI
    unfold hydroG
    simp only [if_pos hI]
    exact max_eq_right (signalSpeed_nonneg (hval a) (hval b))
  refine ⟨h1, ?_, ?_⟩
  · intro b hb hba hI
    rw [← hG b hI]
    exact h2 _ (List.mem_map.2 ⟨b, List.mem_filter.2 ⟨hb, by simpa using hba⟩, rfl⟩)
  · rcases h3 with h3 | ⟨y, hy, h3⟩
    · exact .inl h3
    · obtain ⟨b, hb, rfl⟩ := List.mem_map.1 hy
      obtain ⟨hb, hba⟩ := List.mem_filter.1 hb
      by_cases hI : HydroInteract h (D.attr a) (D.attr b)
      · exact .inr ⟨b, hb, by simpa using hba, hI, by rw [h3, hG b hI]⟩
      · left
        have z : v = 0 := by rw [h3, hydroG_zero hI]; rfl
        have := hs a
        linarith

private theorem acc_swap (h : ℝ) (a b : SPHAttr) : (hydroAcc h b a).scale b.mass = -(hydroAcc h a b).scale a.mass := by
  unfold hydroAcc
  by_cases hI : HydroInteract h a b
  · rw [if_pos hI, if_pos ((interact_swap h a b).2 hI), gradMean_swap, viscosity_swap]
    refine V3.ext' ?_ ?_ ?_ <;> simp only [V3.scale_x, V3.scale_y, V3.scale_z, V3.neg_x, V3.neg_y, V3.neg_z] <;> ring
  · rw [if_neg hI, if_neg fun h' => hI ((interact_swap h a b).1 h')]
    refine V3.ext' ?_ ?_ ?_ <;> simp

private theorem energy_swap (h : ℝ) (a b : SPHAttr) :
    b.mass * (hydroHeat h b a + b.vel.inner (hydroAcc h b a)) = -(a.mass * (hydroHeat h a b + a.vel.inner (hydroAcc h a b))) := by
  unfold hydroAcc hydroHeat
  by_cases hI : HydroInteract h a b
  · rw [if_pos hI, if_pos hI, if_pos ((interact_swap h a b).2 hI), if_pos ((interact_swap h a b).2 hI), gradMean_swap, viscosity_swap]
    unfold V3.inner
    simp only [V3.scale_x, V3.scale_y, V3.scale_z, V3.neg_x, V3.neg_y, V3.neg_z, V3.sub_x, V3.sub_y, V3.sub_z]
    ring
  · rw [if_neg hI, if_neg hI, if_neg fun h' => hI ((interact_swap h a b).1 h'), if_neg fun h' => hI ((interact_swap h a b).1 h')]
    unfold V3.inner
    simp

private theorem owned_sum_zero (hno : ∀ a ∈ s.slots, a.own ≠ .halo) (G : Slot → Slot → ℝ) (hG : ∀ a b, G b a = -G a b)
    (hd : ∀ a b : Slot, b.own = .dummy → G a b = 0) :
    ((s.slots.filter fun a => a.own = .owned).map fun a => ((s.slots.filter fun b => b ≠ a).map (G a)).sum).sum = 0 := by
  rw [← antisymm_sum G hG (s.slots.filter fun a => a.own = .owned)]
  congr 1
  refine List.map_congr_left fun a ha => ?_
  rw [sum_filter_of_zero, sum_filter_of_zero]
  · intro b hb hbo
    apply hd
    have h1 := hno b hb
    have h2 : b.own ≠ .owned := by simpa using hbo
    cases hb : b.own with
    | dummy => rfl
    | owned => exact absurd hb h2
    | halo => exact absurd hb h1
  · intro b _ hba
    have hba : b = a := by simpa using hba
    subst hba
    have := hG b b
    linarith

private theorem sum_comp {X : Type} (g : V3 ℝ → ℝ) (h0 : g 0 = 0) (hadd : ∀ x y, g (x + y) = g x + g y) (k : X → V3 ℝ) (l : List X) :
    g ((l.map k).sum) = (l.map fun x => g (k x)).sum := by
  induction l with
  | nil => exact h0
  | cons x l ih => rw [List.map_cons, List.sum_cons, hadd, ih, List.map_cons, List.sum_cons]

private theorem sum_mul {X : Type} (m : ℝ) (k : X → ℝ) (l : List X) : m * (l.map k).sum = (l.map fun x => m * k x).sum := by
  induction l with
  | nil => simp
  | cons x l ih => rw [List.map_cons, List.sum_cons, mul_add, ih, List.map_cons, List.sum_cons]

/-- The particle without forces. -/
def noHydro : HydroOut := ⟨0, 0, 0⟩

/-- C99, momentum: without halo particles, the sum of mass times acceleration of all particles is zero. -/
theorem C99_momentum_partial (H : ComputesAfter c hist s) (ht : t.Applicable c.block.dims c.block.cellLength c.il) (hf : SlotFunctor c t f)
    (hp : jobs.Perm (s.kernels c t f)) (V : ValidSPH c D h) (hno : ∀ a ∈ s.slots, a.own ≠ .halo) :
    ((s.slots.filter fun a => a.own = .owned).map fun a =>
      ((sphHydro.compute D.attr (fun _ => noHydro) jobs a).acc).scale (D.mass a.particle.id)).sum = 0 := by
  have key : ∀ g : V3 ℝ → ℝ, g 0 = 0 → (∀ x y, g (x + y) = g x + g y) → (∀ (x : V3 ℝ) (m : ℝ), g (x.scale m) = m * g x) →
      g (((s.slots.filter fun a => a.own = .owned).map fun a =>
        ((sphHydro.compute D.attr (fun _ => noHydro) jobs a).acc).scale (D.mass a.particle.id)).sum) = 0 := by
    intro g h0 hadd hsc
    rw [sum_comp g h0 hadd, ← owned_sum_zero (s := s) hno (fun a b => g ((hydroAcc h (D.attr a) (D.attr b)).scale (D.mass a.particle.id)))]
    · congr 1
      refine List.map_congr_left fun a ha => ?_
      obtain ⟨ha, hao⟩ := List.mem_filter.1 ha
      rw [(C99_forces_partial H ht hf hp V (fun _ => noHydro) (fun _ => le_refl 0) a ha (by simpa using hao)).1]
      simp only [hsc, hadd, sum_comp g h0 hadd]
      rw [show g noHydro.acc = 0 from h0, zero_add, sum_mul]
    · intro a b
      have := acc_swap h (D.attr a) (D.attr b)
      have e : g (-(hydroAcc h (D.attr a) (D.attr b)).scale (D.mass a.particle.id)) = -g ((hydroAcc h (D.attr a) (D.attr b)).scale (D.mass a.particle.id)) := by
        have z := hadd ((hydroAcc h (D.attr a) (D.attr b)).scale (D.mass a.particle.id)) (-(hydroAcc h (D.attr a) (D.attr b)).scale (D.mass a.particle.id))
        have z' : (hydroAcc h (D.attr a) (D.attr b)).scale (D.mass a.particle.id) + -(hydroAcc h (D.attr a) (D.attr b)).scale (D.mass a.particle.id) = 0 := by
          refine V3.ext' ?_ ?_ ?_ <;> simp
        rw [z', h0] at z
        linarith
      rw [← e]
      exact congrArg g this
    · intro a b hb
      unfold hydroAcc
      rw [if_neg fun hI => hI.2.1 hb, hsc, h0, mul_zero]
  refine V3.ext' ?_ ?_ ?_
  · exact key V3.x rfl (fun _ _ => rfl) (fun x m => by simp [mul_comm])
  · exact key V3.y rfl (fun _ _ => rfl) (fun x m => by simp [mul_comm])
  · exact key V3.z rfl (fun _ _ => rfl) (fun x m => by simp [mul_comm])

/-- C99, energy: without halo particles, what the particles gain in internal energy is what they lose in kinetic energy. -/
theorem C99_energy_partial (H : ComputesAfter c hist s) (ht : t.Applicable c.block.dims c.block.cellLength c.il) (hf : SlotFunctor c t f)
    (hp : jobs.Perm (s.kernels c t f)) (V : ValidSPH c D h) (hno : ∀ a ∈ s.slots, a.own ≠ .halo) :
    ((s.slots.filter fun a => a.own = .owned).map fun a =>
      D.mass a.particle.id * ((sphHydro.compute D.attr (fun _ => noHydro) jobs a).engDot +
        (D.vel a.particle.id).inner (sphHydro.compute D.attr (fun _ => noHydro) jobs a).acc)).sum = 0 := by
  rw [← owned_sum_zero (s := s) hno (fun a b => D.mass a.particle.id * (hydroHeat h (D.attr a) (D.attr b) +
    (D.vel a.particle.id).inner (hydroAcc h (D.attr a) (D.attr b)))) (fun a b => energy_swap h (D.attr a) (D.attr b))]
  · congr 1
    refine List.map_congr_left fun a ha => ?_
    obtain ⟨ha, hao⟩ := List.mem_filter.1 ha
    obtain ⟨h1, h2⟩ := C99_forces_partial H ht hf hp V (fun _ => noHydro) (fun _ => le_refl 0) a ha (by simpa using hao)
    rw [h1, h2]
    have ez : (0 : V3 ℝ) + (List.map (fun b => hydroAcc h (D.attr a) (D.attr b)) (s.slots.filter fun b => b ≠ a)).sum =
        (List.map (fun b => hydroAcc h (D.attr a) (D.attr b)) (s.slots.filter fun b => b ≠ a)).sum := zero_add _
    rw [show noHydro.acc = 0 from rfl, show noHydro.engDot = 0 from rfl, ez, zero_add,
      sum_comp (fun x => (D.vel a.particle.id).inner x) (by unfold V3.inner; simp) (by
        intro x y; unfold V3.inner; simp only [V3.add_x, V3.add_y, V3.add_z]; ring), ← List.sum_map_add, sum_mul]
  · intro a b hb
    have hI : ¬ HydroInteract h (D.attr a) (D.attr b) := fun hI => hI.2.1 hb
    simp only [hydroAcc, hydroHeat, if_neg hI]
    unfold V3.inner
    simp

end

/-- Two particles at distance 3 with the smoothing lengths 1 and 2, otherwise equal and at rest. -/
noncomputable def exUnequal : Bool → SPHAttr
  | false => ⟨⟨0, 0, 0⟩, 0, 1, 1, 1, 1, 1, .owned⟩
  | true => ⟨⟨3, 0, 0⟩, 0, 1, 2, 1, 1, 1, .owned⟩

private theorem ex_none : sphHydroAoS (exUnequal false) (exUnequal true) = none := by
  unfold sphHydroAoS exUnequal sphSupport V3.inner
  norm_num

private theorem ex_some : ∃ x y, sphHydroAoS (exUnequal true) (exUnequal false) = some (x, y) ∧ x.acc.x ≠ 0 ∧ y.acc.x ≠ 0 := by
  have e : sphHydroAoS (exUnequal true) (exUnequal false) =
      some (sphHydroBody (exUnequal true) (exUnequal false) ((exUnequal true).pos - (exUnequal false).pos)
        (((exUnequal true).pos - (exUnequal false).pos).inner ((exUnequal true).pos - (exUnequal false).pos))) := by
    unfold sphHydroAoS exUnequal sphSupport V3.inner
    norm_num
    intro h0
    cases h0
  have s9 : Real.sqrt 9 = 3 := by rw [show (9 : ℝ) = 3 ^ 2 by norm_num]; exact Real.sqrt_sq (by norm_num)
  refine ⟨_, _, e, ?_, ?_⟩
  · have hl : len ((exUnequal true).pos - (exUnequal false).pos) = 3 := by
      unfold len normSq exUnequal
      norm_num
      exact s9
    simp only [V3.neg_x, V3.scale_x, V3.add_x]
    rw [sphGradW_eq (by norm_num [exUnequal]), sphGradW_eq (by norm_num [exUnequal])]
    unfold gradKernel
    rw [hl]
    unfold exUnequal splineSlope supportOf V3.inner
    norm_num
  · have hl : len ((exUnequal true).pos - (exUnequal false).pos) = 3 := by
      unfold len normSq exUnequal
      norm_num
      exact s9
    simp only [V3.neg_x, V3.scale_x, V3.add_x]
    rw [sphGradW_eq (by norm_num [exUnequal]), sphGradW_eq (by norm_num [exUnequal])]
    unfold gradKernel
    rw [hl]
    unfold exUnequal splineSlope supportOf V3.inner
    norm_num

/-- The code violates C99 for particles with different smoothing lengths: with Newton 3, the result depends on which of the two particles is the
first argument. -/
theorem C99_order_matters :
    (sphHydro.compute exUnequal (fun _ => noHydro) [.aos ⟨false, true, true⟩] false).acc = 0 ∧
      (sphHydro.compute exUnequal (fun _ => noHydro) [.aos ⟨true, false, true⟩] false).acc ≠ 0 := by
  obtain ⟨x, y, e, hx, hy⟩ := ex_some
  refine ⟨?_, fun h0 => hy ?_⟩
  · show ((sphHydro.aosCall exUnequal (fun _ => noHydro) ⟨false, true, true⟩) false).acc = 0
    unfold PairFunctor.aosCall
    rw [show sphHydro.aos (exUnequal false) (exUnequal true) = none from ex_none]
    rfl
  · have h1 : ((sphHydro.aosCall exUnequal (fun _ => noHydro) ⟨true, false, true⟩) false).acc = 0 := h0
    unfold PairFunctor.aosCall at h1
    rw [show sphHydro.aos (exUnequal true) (exUnequal false) = some (x, y) from e] at h1
    have := congrArg V3.x h1
    simpa [sphHydro, HydroOut.plus, noHydro] using this

/-- Without Newton 3, one of the two particles is accelerated and the other is not. -/
theorem C99_momentum_violated :
    let r := sphHydro.compute exUnequal (fun _ => noHydro) [.aos ⟨false, true, false⟩, .aos ⟨true, false, false⟩]
    ((r false).acc.scale (exUnequal false).mass + (r true).acc.scale (exUnequal true).mass) ≠ 0 := by
  intro r h0
  obtain ⟨x, y, e, hx, hy⟩ := ex_some
  have hr : r = Function.update (fun _ => noHydro) true (noHydro.plus x) := by
    show sphHydro.aosCall exUnequal (sphHydro.aosCall exUnequal (fun _ => noHydro) ⟨false, true, false⟩) ⟨true, false, false⟩ = _
    unfold PairFunctor.aosCall
    rw [show sphHydro.aos (exUnequal false) (exUnequal true) = none from ex_none,
      show sphHydro.aos (exUnequal true) (exUnequal false) = some (x, y) from e]
    rfl
  rw [hr] at h0
  have := congrArg V3.x h0
  simp [HydroOut.plus, noHydro, exUnequal] at this
  exact hx this

/-- C99, equation of state of an ideal gas with heat capacity ratio 1.4: the pressure and the square of the speed of sound. The speed of sound
is not negative, as the other theorems ask for. -/
theorem C99_equation_of_state {density energy : ℝ} (hd : 0 < density) (he : 0 ≤ energy) :
    let r := sphCalcPressure density energy
    r.1 = 2 / 5 * density * energy ∧ 0 ≤ r.2 ∧ r.2 ^ 2 = 7 / 5 * r.1 / density := by
  intro r
  refine ⟨?_, Real.sqrt_nonneg _, ?_⟩
  · show ((1.4 : ℝ) - 1) * density * energy = _
    norm_num
  · show Real.sqrt (1.4 * ((1.4 - 1) * density * energy) / density) ^ 2 = 7 / 5 * ((1.4 - 1) * density * energy) / density
    rw [Real.sq_sqrt (by norm_num; positivity)]
    norm_num

/-- C99, time step: the largest that satisfies the Courant condition of all particles (not larger than 10^30). -/
theorem C99_time_step (particles : List (ℝ × ℝ)) :
    (∀ p ∈ particles, sphTimeStep particles ≤ 3 / 5 * p.1 / p.2) ∧ sphTimeStep particles ≤ 10 ^ 30 ∧
      (sphTimeStep particles = 10 ^ 30 ∨ ∃ p ∈ particles, sphTimeStep particles = 3 / 5 * p.1 / p.2) := by
  have key : ∀ (l : List (ℝ × ℝ)) (d : ℝ), let r := l.foldl (fun dt p => min dt (sphCalcDt p.1 p.2)) d
      (∀ p ∈ l, r ≤ sphCalcDt p.1 p.2) ∧ r ≤ d ∧ (r = d ∨ ∃ p ∈ l, r = sphCalcDt p.1 p.2) := by
    intro l
    induction l with
    | nil => intro d; simp
    | cons x l ih =>
      intro d
      obtain ⟨h1, h2, h3⟩ := ih (min d (sphCalcDt x.1 x.2))
      simp only [List.foldl_cons]
      refine ⟨?_, h2.trans (min_le_left _ _), ?_⟩
      · intro p hp
        rcases List.mem_cons.1 hp with rfl | hp
        · exact h2.trans (min_le_right _ _)
        · exact h1 p hp
      · rcases h3 with h3 | ⟨p, hp, h3⟩
        · rcases min_choice d (sphCalcDt x.1 x.2) with h4 | h4
          · exact .inl (h3.trans h4)
          · exact .inr ⟨x, List.mem_cons_self, h3.trans h4⟩
        · exact .inr ⟨p, List.mem_cons_of_mem _ hp, h3⟩
  have e : ∀ p : ℝ × ℝ, sphCalcDt p.1 p.2 = 3 / 5 * p.1 / p.2 := by
    intro p
    unfold sphCalcDt
    norm_num
  have := key particles 1.0e+30
  simp only [e] at this
  unfold sphTimeStep
  simp only [e]
  rw [show (1.0e+30 : ℝ) = 10 ^ 30 by norm_num] at *
  exact this

/-! Non-vacuity: the three particles of C98, moving. -/

example : ∃ (D : SPHData) (h : ℝ), ValidSPH exParams D h ∧ D.vel 1 ≠ D.vel 2 := by
  refine ⟨⟨fun id => ⟨id, 0, 0⟩, fun _ => 2, fun _ => 1 / 5, fun _ => 1, fun _ => 1, fun _ => 1⟩, 1 / 5, ⟨by norm_num, ?_, fun _ => rfl,
    fun _ => one_pos, fun _ => zero_le_one⟩, ?_⟩
  · have : exParams.cutoff = 1 / 2 := by decide +kernel
    rw [this]
    push_cast
    norm_num
  · intro h
    have := congrArg V3.x h
    norm_num at this

example (t : LCTraversal) (f : CellFunctorCfg Slot) : ∃ s, ∃ jobs : List (KernelCall Slot), ComputesAfter exParams exLJHistory s ∧
    jobs.Perm (s.kernels exParams t f) ∧ (∀ a ∈ s.slots, a.own ≠ .halo) := by
  obtain ⟨s, H, hp⟩ := exLJ_state
  rw [← slots_map] at hp
  refine ⟨s, s.kernels exParams t f, H, List.Perm.refl _, fun a ha => ?_⟩
  have hm := hp.mem_iff.1 (List.mem_map.2 ⟨a, ha, rfl⟩)
  have : ∀ p ∈ ([⟨1, ⟨1/4, 1/2, 1/2⟩, .owned⟩, ⟨2, ⟨1/2, 1/2, 1/2⟩, .owned⟩, ⟨3, ⟨1/2, 3/4, 1/2⟩, .owned⟩] : List Particle), p.own ≠ .halo := by
    decide +kernel
  exact this _ hm

end Verif
