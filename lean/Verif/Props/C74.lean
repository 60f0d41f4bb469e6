import Verif.Lemmas.LJComplete
import Verif.Props.C52
/-!
# C74 — computeInteractions with the Lennard-Jones functor yields the physics

After every history of operations (C52), with every applicable traversal, data layout, Newton 3 setting, sorting, vector length, number of
threads and distribution of the work over the threads: the force of every owned particle grows by the sum of the textbook forces of all
other particles, and `getPotentialEnergy()` and `getVirial()` are the textbook sums.

`InGeneralPosition`: no stored particle sits exactly on another one (the potential is singular there; for deleted particles see C73), and no
two are exactly at the cutoff distance, where the traversals need not agree (C20).
-/
namespace Verif
open Spec

/-- No existing particle sits exactly on another place's particle, or is exactly at the cutoff distance from it. -/
def InGeneralPosition (cutoff : Rat) (all : List Slot) : Prop :=
  ∀ a ∈ all, ∀ b ∈ all, a ≠ b → a.own ≠ .dummy → a.pos ≠ b.pos ∧ distSq a.pos b.pos ≠ cutoff * cutoff

/-- The Lennard-Jones functor is used for `computeInteractions` of a state: it was set up with the parameters `par` and the cutoff of the
simulation; `jobs` are its kernel calls in any order, each on any of the threads. -/
structure ComputesLJ (c : LHParams) (s : LHState) (t : LCTraversal) (f : CellFunctorCfg Slot) (lj : LJCfg Rat) (par : LJParams Rat)
    (threads : Nat) (jobs : List (Nat × KernelCall Slot)) : Prop where
  setUp : SetUp lj par
  symmetric : par.Symmetric
  cutoff : lj.cutoffSquared = c.cutoff * c.cutoff
  position : InGeneralPosition c.cutoff s.slots
  schedule : (jobs.map Prod.snd).Perm (s.kernels c t f)
  threads : ∀ j ∈ jobs, j.1 < threads

private theorem sum_six {X : Type} (g : X → Rat) (l : List X) : (l.map fun e => 6 * g e).sum = 6 * (l.map g).sum := by
  induction l with
  | nil => simp
  | cons x l ih => rw [List.map_cons, List.sum_cons, ih, List.map_cons, List.sum_cons, mul_add]

section
variable {c : LHParams} {h : List LHAction} {s : LHState} {t : LCTraversal} {f : CellFunctorCfg Slot}
variable {lj : LJCfg Rat} {par : LJParams Rat} {threads : Nat} {jobs : List (Nat × KernelCall Slot)}

private theorem jobs_calls (J : ComputesLJ c s t f lj par threads jobs) :
    (contributions (jobs.flatMap fun j => j.2.calls)).Perm (contributions (s.interactions c t f)) := by
  have e : (jobs.flatMap fun j => j.2.calls) = (jobs.map Prod.snd).flatMap KernelCall.calls := by rw [List.flatMap_map]
  rw [e, ← kernels_calls]
  unfold contributions
  exact (J.schedule.flatMap_right _).flatMap_right _

private theorem compute_eq (H : ComputesAfter c h s) (ht : t.Applicable c.block.dims c.block.cellLength c.il) (hf : SlotFunctor c t f)
    (J : ComputesLJ c s t f lj par threads jobs) (vecsize : Nat) (typeOf : Nat → Nat) (force : Slot → V3 (Num Rat)) :
    let e := ((contributions (s.interactions c t f)).map (ljEvent par lj.cutoffSquared (slotMol typeOf))).sum
    ljCompute lj vecsize threads (slotMol typeOf) force jobs =
      (force + e.force, e.globals.potentialEnergySum * .fin (1 / 2) / .fin 6, e.globals.virialSum.scale (.fin (1 / 2))) := by
  intro e
  have hc := (H.ready.complete ht hf)
  have := ljCompute_eq J.setUp J.symmetric vecsize threads (slotMol typeOf) force jobs
    (fun j hj => ⟨J.threads j hj, kernels_lists c s t f _ (J.schedule.mem_iff.1 (List.mem_map.2 ⟨j, hj, rfl⟩))⟩) (by
      intro x hx
      have hx := (jobs_calls J).mem_iff.1 hx
      obtain ⟨h1, h2, h3⟩ := hc.mem x.1 x.2 (mem_contributions.2 hx)
      exact ⟨h3, fun hd => (J.position _ h1 _ h2 h3 hd).1⟩)
  rw [this]
  have es : ((contributions (jobs.flatMap fun j => j.2.calls)).map (ljEvent par lj.cutoffSquared (slotMol typeOf))).sum = e :=
    ((jobs_calls J).map _).sum_eq
  rw [es]

private theorem no_interaction (J : ComputesLJ c s t f lj par threads jobs) (typeOf : Nat → Nat) :
    ∀ a ∈ s.slots, ∀ b ∈ s.slots, a ≠ b → (b.own = .dummy ∨ c.cutoff * c.cutoff ≤ distSq a.pos b.pos) →
      ¬ Interact lj.cutoffSquared (slotMol typeOf a) (slotMol typeOf b) := by
  intro a ha b hb hab hz hI
  rcases hz with hz | hz
  · exact hI.2.1 hz
  · have := hI.2.2
    rw [J.cutoff] at this
    exact (J.position a ha b hb hab hI.1).2 (le_antisymm this hz)

/-- C74, forces. -/
theorem C74_forces (H : ComputesAfter c h s) (ht : t.Applicable c.block.dims c.block.cellLength c.il) (hf : SlotFunctor c t f)
    (J : ComputesLJ c s t f lj par threads jobs) (vecsize : Nat) (typeOf : Nat → Nat) (force : Slot → V3 (Num Rat))
    (a : Slot) (ha : a ∈ s.slots) (hao : a.own = .owned) :
    (ljCompute lj vecsize threads (slotMol typeOf) force jobs).1 a = force a +
      (((s.slots.filter fun b => b ≠ a).map fun b => ljForceOn par (c.cutoff * c.cutoff) (slotMol typeOf a) (slotMol typeOf b)).sum).fin := by
  rw [compute_eq H ht hf J]
  simp only
  rw [Pi.add_apply, events_force, ← J.cutoff]
  congr 2
  exact (H.ready.complete ht hf).sum_at (slots_input s H.ready.bl).nodup
    (fun a b => ljForceOn par lj.cutoffSquared (slotMol typeOf a) (slotMol typeOf b))
    (fun a ha b hb hab hz => if_neg (no_interaction J typeOf a ha b hb hab hz)) a ha hao

/-- C74, potential energy: half the sum over all owned particles and all their neighbours. So a pair of owned particles counts once; the half
of a pair with a halo particle that is missing counts where the halo particle is owned. -/
theorem C74_potential_energy (H : ComputesAfter c h s) (ht : t.Applicable c.block.dims c.block.cellLength c.il) (hf : SlotFunctor c t f)
    (J : ComputesLJ c s t f lj par threads jobs) (vecsize : Nat) (typeOf : Nat → Nat) (force : Slot → V3 (Num Rat)) :
    ljPotentialEnergy (ljCompute lj vecsize threads (slotMol typeOf) force jobs).2 = .fin (1 / 2 *
      ((s.slots.filter fun a => a.own = .owned).map fun a =>
        ((s.slots.filter fun b => b ≠ a).map fun b => ljEnergyOf par (c.cutoff * c.cutoff) (slotMol typeOf a) (slotMol typeOf b)).sum).sum) := by
  rw [compute_eq H ht hf J, events_globals, ← J.cutoff]
  unfold ljPotentialEnergy
  simp only
  have := (H.ready.complete ht hf).sum_owned (slots_input s H.ready.bl).nodup
    (fun a b => ljEnergyOf par lj.cutoffSquared (slotMol typeOf a) (slotMol typeOf b))
    (fun a ha b hb hab hz => if_neg (no_interaction J typeOf a ha b hb hab hz))
  rw [← this, sum_six (fun e : Slot × Slot => ljEnergyOf par lj.cutoffSquared (slotMol typeOf e.1) (slotMol typeOf e.2)), Num.fin_mul, Num.fin_div (by norm_num)]
  congr 1
  change (6 * _ * (1 / 2) / 6 : Rat) = _
  ring_nf
  rfl

/-- C74, virial. -/
theorem C74_virial (H : ComputesAfter c h s) (ht : t.Applicable c.block.dims c.block.cellLength c.il) (hf : SlotFunctor c t f)
    (J : ComputesLJ c s t f lj par threads jobs) (vecsize : Nat) (typeOf : Nat → Nat) (force : Slot → V3 (Num Rat)) :
    let w := ((s.slots.filter fun a => a.own = .owned).map fun a =>
        ((s.slots.filter fun b => b ≠ a).map fun b => ljVirialOf par (c.cutoff * c.cutoff) (slotMol typeOf a) (slotMol typeOf b)).sum).sum
    ljVirial (ljCompute lj vecsize threads (slotMol typeOf) force jobs).2 = .fin (1 / 2 * (w.x + w.y + w.z)) := by
  intro w
  rw [compute_eq H ht hf J, events_globals]
  unfold ljVirial
  simp only
  have hz : ∀ a ∈ s.slots, ∀ b ∈ s.slots, a ≠ b → (b.own = .dummy ∨ c.cutoff * c.cutoff ≤ distSq a.pos b.pos) →
      ljVirialOf par lj.cutoffSquared (slotMol typeOf a) (slotMol typeOf b) = 0 := by
    intro a ha b hb hab hz
    unfold ljVirialOf ljForceOn
    rw [if_neg (no_interaction J typeOf a ha b hb hab hz)]
    refine V3.ext' ?_ ?_ ?_ <;> simp
  have := (H.ready.complete ht hf).sum_owned (slots_input s H.ready.bl).nodup
    (fun a b => ljVirialOf par lj.cutoffSquared (slotMol typeOf a) (slotMol typeOf b)) hz
  have hw : w = (((contributions (s.interactions c t f)).filter fun t => t.1.own = .owned).map
      fun t => ljVirialOf par lj.cutoffSquared (slotMol typeOf t.1) (slotMol typeOf t.2)).sum := by
    rw [this, J.cutoff]
  rw [hw]
  change Num.fin _ * Num.fin _ + Num.fin _ * Num.fin _ + Num.fin _ * Num.fin _ = _
  rw [Num.fin_mul, Num.fin_mul, Num.fin_mul, Num.fin_add, Num.fin_add]
  congr 1
  ring_nf
  rfl

private theorem add_swap_zero {X : Type} (G : X → X → V3 Rat) (hG : ∀ a b, G b a = -G a b) (x : X) (l : List X) :
    (l.map (G x)).sum + (l.map fun a => G a x).sum = 0 := by
  induction l with
  | nil => simp
  | cons y l ih =>
    simp only [List.map_cons, List.sum_cons]
    rw [hG x y]
    have hx := congrArg V3.x ih
    have hy := congrArg V3.y ih
    have hz := congrArg V3.z ih
    simp only [V3.add_x, V3.add_y, V3.add_z, V3.zero_x, V3.zero_y, V3.zero_z] at hx hy hz
    refine V3.ext' ?_ ?_ ?_ <;> simp only [V3.add_x, V3.add_y, V3.add_z, V3.neg_x, V3.neg_y, V3.neg_z, V3.zero_x, V3.zero_y, V3.zero_z] <;> linarith

private theorem double_sum_zero {X : Type} (G : X → X → V3 Rat) (hG : ∀ a b, G b a = -G a b) (l : List X) :
    (l.map fun a => (l.map (G a)).sum).sum = 0 := by
  have hself : ∀ a, G a a = 0 := by
    intro a
    have h := hG a a
    have hx := congrArg V3.x h
    have hy := congrArg V3.y h
    have hz := congrArg V3.z h
    simp only [V3.neg_x, V3.neg_y, V3.neg_z] at hx hy hz
    refine V3.ext' ?_ ?_ ?_ <;> simp only [V3.zero_x, V3.zero_y, V3.zero_z] <;> linarith
  induction l with
  | nil => rfl
  | cons x l ih =>
    simp only [List.map_cons, List.sum_cons, hself, zero_add]
    rw [List.sum_map_add, ih, add_zero]
    exact add_swap_zero G hG x l

private theorem sum_fin {X : Type} (g : X → V3 Rat) (l : List X) : (l.map fun x => (g x).fin).sum = ((l.map g).sum).fin := by
  induction l with
  | nil => rfl
  | cons x l ih => rw [List.map_cons, List.sum_cons, ih, List.map_cons, List.sum_cons, V3.fin_add]

private theorem sum_filter_zero {X : Type} {M : Type} [AddCommMonoid M] (p : X → Bool) (g : X → M) (l : List X) (h : ∀ x ∈ l, p x = false → g x = 0) :
    ((l.filter p).map g).sum = (l.map g).sum := by
  induction l with
  | nil => rfl
  | cons x l ih =>
    have ih := ih fun y hy => h y (List.mem_cons_of_mem _ hy)
    by_cases hp : p x = true
    · rw [List.filter_cons_of_pos hp, List.map_cons, List.sum_cons, ih, List.map_cons, List.sum_cons]
    · rw [List.filter_cons_of_neg hp, ih, List.map_cons, List.sum_cons, h x List.mem_cons_self (by simpa using hp), zero_add]

/-- C74, momentum: if there are no halo particles, the forces of all particles sum up to zero (Newton's third law, with every
configuration). -/
theorem C74_total_force_zero (H : ComputesAfter c h s) (ht : t.Applicable c.block.dims c.block.cellLength c.il) (hf : SlotFunctor c t f)
    (J : ComputesLJ c s t f lj par threads jobs) (vecsize : Nat) (typeOf : Nat → Nat) (hno : ∀ a ∈ s.slots, a.own ≠ .halo) :
    ((s.slots.filter fun a => a.own = .owned).map (ljCompute lj vecsize threads (slotMol typeOf) (fun _ => 0) jobs).1).sum = 0 := by
  have e : ((s.slots.filter fun a => a.own = .owned).map (ljCompute lj vecsize threads (slotMol typeOf) (fun _ => 0) jobs).1) =
      (s.slots.filter fun a => a.own = .owned).map fun a => (((s.slots.filter fun a => a.own = .owned).map fun b =>
        ljForceOn par (c.cutoff * c.cutoff) (slotMol typeOf a) (slotMol typeOf b)).sum).fin := by
    refine List.map_congr_left fun a ha => ?_
    obtain ⟨ha, hao⟩ := List.mem_filter.1 ha
    rw [C74_forces H ht hf J vecsize typeOf _ a ha (by simpa using hao), zero_add]
    congr 1
    rw [sum_filter_zero, sum_filter_zero]
    · intro b hb hbo
      have hd : b.own = .dummy := by
        have h1 := hno b hb
        have h2 : b.own ≠ .owned := by simpa using hbo
        cases hb : b.own with
        | dummy => rfl
        | owned => exact absurd hb h2
        | halo => exact absurd hb h1
      exact if_neg fun hI => hI.2.1 hd
    · intro b _ hba
      have hba : b = a := by simpa using hba
      subst hba
      have := forceOn_swap J.symmetric (c.cutoff * c.cutoff) (slotMol typeOf b) (slotMol typeOf b)
      have hx := congrArg V3.x this
      have hy := congrArg V3.y this
      have hz := congrArg V3.z this
      simp only [V3.neg_x, V3.neg_y, V3.neg_z] at hx hy hz
      refine V3.ext' ?_ ?_ ?_ <;> simp only [V3.zero_x, V3.zero_y, V3.zero_z] <;> linarith
  rw [e, sum_fin, double_sum_zero _ (fun a b => forceOn_swap J.symmetric _ _ _)]
  rfl

end
/-! Non-vacuity: two particles go into the container, a third one into an insertion buffer, and interactions are computed. -/

def exLJHistory : List LHAction :=
  [.add 0 ⟨1, ⟨1/4, 1/2, 1/2⟩, .owned⟩, .add 1 ⟨2, ⟨1/2, 1/2, 1/2⟩, .owned⟩, .compute, .add 1 ⟨3, ⟨1/2, 3/4, 1/2⟩, .owned⟩]

theorem exLJHistory_good : GoodHistory exParams exLJHistory :=
  ⟨exParams_ok, ⟨(by decide : 0 < 2), fun _ _ => ⟨(by decide : 1 < 2), fun _ _ => ⟨trivial, fun _ _ => ⟨(by decide : 1 < 2), fun _ _ => trivial⟩⟩⟩⟩, by decide⟩

theorem exLJ_state : ∃ s, ComputesAfter exParams exLJHistory s ∧
    (s.cells.flatten ++ (s.bufs.flatten ++ s.haloBufs.flatten)).Perm
      [⟨1, ⟨1/4, 1/2, 1/2⟩, .owned⟩, ⟨2, ⟨1/2, 1/2, 1/2⟩, .owned⟩, ⟨3, ⟨1/2, 3/4, 1/2⟩, .owned⟩] := by
  obtain ⟨s, outs, h1, -, -⟩ := C25_particles_conserved exLJHistory_good
  have b1 : inBoxB (⟨1/4, 1/2, 1/2⟩ : V3 Rat) exParams.bMin exParams.bMax = true := by decide +kernel
  have b2 : inBoxB (⟨1/2, 1/2, 1/2⟩ : V3 Rat) exParams.bMin exParams.bMax = true := by decide +kernel
  have b3 : inBoxB (⟨1/2, 3/4, 1/2⟩ : V3 Rat) exParams.bMin exParams.bMax = true := by decide +kernel
  have hs := h1
  simp only [exLJHistory, lhRun, lhStep, LHState.addParticle, b1, b2, b3, Option.map_some, Option.some.injEq, Prod.mk.injEq,
      Bool.true_eq_false, if_false] at hs
  refine ⟨s, ⟨exLJHistory_good, ⟨trivial, fun _ _ => ⟨trivial, fun _ _ => ⟨trivial, fun _ _ => ⟨trivial, fun _ _ => trivial⟩⟩⟩⟩, by decide, ⟨outs, h1⟩, ?_⟩, ?_⟩
  · have key : ∀ (as : List LHAction) (mv : Moves) (s : LHState), (∀ a ∈ as, match a with | .move _ => False | _ => True) → mv.sinceUpdate = false →
        (Moves.after exParams mv s as).sinceUpdate = false := by
      intro as
      induction as with
      | nil => intro mv s _ h; exact h
      | cons a as ih =>
        intro mv s ha h
        show (match lhStep exParams s a with | none => mv | some r => _).sinceUpdate = _
        cases lhStep exParams s a with
        | none => exact h
        | some r =>
          refine ih _ _ (fun x hx => ha x (List.mem_cons_of_mem _ hx)) ?_
          have := ha a List.mem_cons_self
          cases a <;> first | exact h | rfl | exact this.elim
    exact key _ _ _ (by simp [exLJHistory]) rfl
  · rw [← hs.1]
    have hlen : (LHState.init exParams).cells.length = exParams.block.numCells := by simp [LHState.init]
    have hcells : (LHState.init exParams).cells.flatten = [] := by simp [LHState.init]
    have p1 := lcAdd_perm exParams_ok hlen ⟨1, ⟨1/4, 1/2, 1/2⟩, .owned⟩
    have p2 := lcAdd_perm exParams_ok (cells := lcAdd exParams.block (LHState.init exParams).cells ⟨1, ⟨1/4, 1/2, 1/2⟩, .owned⟩)
      (by rw [lcAdd_length]; exact hlen) ⟨2, ⟨1/2, 1/2, 1/2⟩, .owned⟩
    rw [hcells, List.nil_append] at p1
    exact (p2.trans (p1.append_right _)).append_right _

theorem slots_map (s : LHState) : s.slots.map Slot.particle = s.cells.flatten ++ (s.bufs.flatten ++ s.haloBufs.flatten) := by
  have key : ∀ a ls, (slotsOf a ls).flatten.map Slot.particle = ls.flatten := by
    intro a ls
    unfold slotsOf
    rw [List.map_flatten]
    congr 1
    apply List.ext_getElem (by simp)
    intro i h1 h2
    simp only [List.getElem_map, List.getElem_mapIdx]
    apply List.ext_getElem (by simp)
    intro j h3 h4
    simp
  unfold LHState.slots
  simp only [List.map_append, key]

/-- All hypotheses are met: any applicable traversal and functor configuration, e.g. everything on one of two threads. -/
theorem exLJ_computes (t : LCTraversal) (f : CellFunctorCfg Slot) : ∃ s lj par jobs, ComputesAfter exParams exLJHistory s ∧
    ComputesLJ exParams s t f lj par 2 jobs ∧ (s.slots.filter fun a => a.own = .owned).length = 3 := by
  obtain ⟨s, H, hp⟩ := exLJ_state
  rw [← slots_map] at hp
  refine ⟨s, ⟨false, false, exParams.cutoff * exParams.cutoff, 24, 1/100, 0, fun _ _ => 0, fun _ _ => 0, fun _ _ => 0⟩,
    ⟨fun _ _ => 1, fun _ _ => 1/10, fun _ _ => 0⟩, (s.kernels exParams t f).map fun k => (1, k), H, ?_, ?_⟩
  · refine ⟨⟨fun _ _ => by simp [LJCfg.eps], fun _ _ => by simp [LJCfg.sig]; norm_num, fun _ _ => by simp [LJCfg.shift]⟩,
      ⟨fun _ _ => rfl, fun _ _ => rfl, fun _ _ => rfl⟩, rfl, ?_, ?_, ?_⟩
    · have hpw : (s.slots.map Slot.particle).Pairwise fun a b => a.pos ≠ b.pos ∧ distSq a.pos b.pos ≠ exParams.cutoff * exParams.cutoff := by
        refine (hp.pairwise_iff ?_).2 ?_
        · intro a b hab
          refine ⟨fun h' => hab.1 h'.symm, ?_⟩
          rw [show distSq b.pos a.pos = distSq a.pos b.pos from by unfold distSq; ring]
          exact hab.2
        · simp only [List.pairwise_cons]
          decide +kernel
      rw [List.pairwise_map] at hpw
      intro a ha b hb hab _
      haveI : Std.Symm fun x y : Slot => x.particle.pos ≠ y.particle.pos ∧ distSq x.particle.pos y.particle.pos ≠ exParams.cutoff * exParams.cutoff := by
        refine ⟨fun x y hxy => ⟨fun h' => hxy.1 h'.symm, ?_⟩⟩
        rw [show distSq y.particle.pos x.particle.pos = distSq x.particle.pos y.particle.pos from by unfold distSq; ring]
        exact hxy.2
      exact hpw.forall ha hb hab
    · rw [List.map_map]
      have : (Prod.snd ∘ fun k : KernelCall Slot => (1, k)) = id := rfl
      rw [this, List.map_id]
    · intro j hj
      obtain ⟨k, -, rfl⟩ := List.mem_map.1 hj
      exact (by decide : 1 < 2)
  · have : (s.slots.filter fun a => a.own = .owned).length = ((s.slots.map Slot.particle).filter fun p => p.own = .owned).length := by
      rw [List.filter_map, List.length_map]; rfl
    rw [this, (hp.filter _).length_eq]
    decide +kernel

end Verif
