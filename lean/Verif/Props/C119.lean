import Verif.Lemmas.LJSVESystem
import Verif.Props.C100
/-!
# C119 — the vectorised (SVE) Lennard-Jones functor

`LJFunctorSVE` handles registers of `w` particles at a time; the processor determines `w`. As for the AVX functor (C100), every kernel should stay
inside of the arrays it is given and have the effect of calling the plain AoS kernel for every pair of particles, whatever `w` and the number of
particles are.

This holds if all particles have the same parameters, i.e. without mixing or with one type of particles: theorems `.._partial`. With different
types it does not, for three reasons:
* for two cells, the type of the first particle of a pair is that of the first particle of the cell (`C119_violated_pair_first_type`);
* for cells, the types of the second particles are loaded from the beginning of the cell for every register (`C119_violated_lane_types`);
* for neighbour lists, the type of the first particle is that of particle 0 (`C119_violated_list_first_type`).

The kernels are modelled with an exact reciprocal; `C119_reciprocal` is about the iteration that computes it.
-/
namespace Verif
open Spec

section
variable {K : Type} [Field K] [LinearOrder K] [IsStrictOrderedRing K]

/-- The four steps of Newton's method: with a relative error of at most 2⁻⁸ in the estimate (what the processor guarantees for `svrecpe`), the error of the
reciprocal is at most 2⁻¹²⁸, far below the rounding of doubles. -/
theorem C119_reciprocal (a x : K) (hx : |1 - a * x| ≤ 1 / 2 ^ 8) : |1 - a * sveReciprocal a x| ≤ 1 / 2 ^ 128 := by
  rw [sveReciprocal_error, abs_pow]
  refine (pow_le_pow_left₀ (abs_nonneg _) hx 16).trans (le_of_eq ?_)
  rw [div_pow, one_pow, ← pow_mul]

example : |1 - (3 : Rat) * (85 / 256)| ≤ 1 / 2 ^ 8 := by norm_num [abs_le]

end

section
variable {K : Type} [Field K] [LinearOrder K] [IsStrictOrderedRing K] {P : Type} [DecidableEq P] [Inhabited P]
variable {c : LJCfg K} {par : LJParams K} {w : Nat}

/-- Without mixing all particles have the same parameters. -/
theorem sameParams_without_mixing (hm : c.useMixing = false) (T : Nat → Prop) : SameParams c T := by
  intro a b a' b' _ _ _ _
  unfold LJCfg.eps LJCfg.sig LJCfg.shift
  simp [hm]

/-- Or if there is only one type. -/
theorem sameParams_one_type (mol : P → Mol K) (t : Nat) (ht : ∀ p, (mol p).type = t) : SameParams c fun t => ∃ p, (mol p).type = t := by
  rintro a b a' b' ⟨p, rfl⟩ ⟨q, rfl⟩ ⟨p', rfl⟩ ⟨q', rfl⟩
  rw [ht p, ht q, ht p', ht q']
  exact ⟨rfl, rfl, rfl⟩

private theorem run_of_kernel (hw : 0 < w) (h : SetUp c par) (hs : par.Symmetric) (mol : P → Mol K) (hT : SameParams c fun t => ∃ p, (mol p).type = t) (s : LJState P K) (k : KernelCall P) (hl : k.AvxLists)
    (hk : ∀ e ∈ contributions k.calls, e.1 ≠ e.2 ∧ (Interact c.cutoffSquared (mol e.1) (mol e.2) → (mol e.1).pos ≠ (mol e.2).pos)) :
    sveKernelCall c w mol s k = some (ljRun c mol s k.calls) := by
  rw [sveKernelCall_eq hw h hs mol hT s k hl hk, ljRun_eq h hs]
  intro call hcall
  have hmem : (call.p, call.q) ∈ contributions k.calls := by
    unfold contributions
    exact List.mem_flatMap.2 ⟨call, hcall, List.mem_cons_self⟩
  exact hk _ hmem

/-- One cell: the kernel does to the forces, the potential energy and the virial exactly what the AoS kernel does when it is called for every pair of
particles of the cell, with or without Newton 3. -/
theorem C119_cell_as_aos_partial (hw : 0 < w) (h : SetUp c par) (hs : par.Symmetric) (mol : P → Mol K) (hT : SameParams c fun t => ∃ p, (mol p).type = t) {l : List P} (hl : l.Nodup) (hd : ExistingApart mol l l)
    (newton3 : Bool) (s : LJState P K) : sveKernelCall c w mol s (.single newton3 l) = some (ljRun c mol s (soaSingle newton3 l)) := by
  refine run_of_kernel hw h hs mol hT s (.single newton3 l) ⟨hl, trivial⟩ ?_
  intro e he
  have := (contributions_single_perm newton3 hl).mem_iff.1 he
  unfold orderedPairs at this
  obtain ⟨x, hx, this⟩ := List.mem_flatMap.1 this
  obtain ⟨y, hy, rfl⟩ := List.mem_map.1 this
  obtain ⟨hy, hne⟩ := List.mem_filter.1 hy
  have hne : x ≠ y := fun h' => by simp [h'] at hne
  exact ⟨hne, fun hI => hd _ hx _ hy hne hI.1 hI.2.1⟩

/-- Two cells: likewise. -/
theorem C119_cell_pair_as_aos_partial (hw : 0 < w) (h : SetUp c par) (hs : par.Symmetric) (mol : P → Mol K) (hT : SameParams c fun t => ∃ p, (mol p).type = t) {l₁ l₂ : List P} (hl₁ : l₁.Nodup) (hl₂ : l₂.Nodup)
    (hdis : ∀ p ∈ l₁, p ∉ l₂) (hd : ExistingApart mol l₁ l₂) (newton3 : Bool) (s : LJState P K) :
    sveKernelCall c w mol s (.pair newton3 l₁ l₂) = some (ljRun c mol s (soaPair newton3 l₁ l₂)) := by
  have hne : ∀ a ∈ l₁, ∀ b ∈ l₂, a ≠ b := fun a ha b hb h' => hdis a ha (h' ▸ hb)
  refine run_of_kernel hw h hs mol hT s (.pair newton3 l₁ l₂) ⟨⟨hl₁, hl₂⟩, trivial⟩ ?_
  intro e he
  obtain ⟨call, hcall, he⟩ := List.mem_flatMap.1 he
  change call ∈ soaPair newton3 l₁ l₂ at hcall
  unfold soaPair crossLoop at hcall
  obtain ⟨t, ht, rfl⟩ := List.mem_map.1 hcall
  obtain ⟨x, hx, ht⟩ := List.mem_flatMap.1 ht
  obtain ⟨y, hy, rfl⟩ := List.mem_map.1 ht
  have hy : y ∈ l₂ := (List.takeWhile_sublist _).subset hy
  have hxy := hne x hx y hy
  have : e = (x, y) ∨ e = (y, x) := by
    rcases List.mem_cons.1 he with he | he
    · exact .inl he
    · split at he
      · exact .inr (List.mem_singleton.1 he)
      · cases he
  rcases this with rfl | rfl
  · exact ⟨hxy, fun hI => hd x hx y hy hxy hI.1 hI.2.1⟩
  · exact ⟨hxy.symm, fun hI => (hd x hx y hy hxy hI.2.1 hI.1).symm⟩

/-- A neighbour list: likewise. -/
theorem C119_list_as_aos_partial (hw : 0 < w) (h : SetUp c par) (hs : par.Symmetric) (mol : P → Mol K) (hT : SameParams c fun t => ∃ p, (mol p).type = t) {l : List P} (hl : l.Nodup) (newton3 : Bool)
    (first : Nat) (list : List Nat) (hlist : list.Nodup) (hf : first < l.length) (hj : ∀ j ∈ list, j < l.length ∧ j ≠ first)
    (hd : ExistingApart mol l l) (s : LJState P K) :
    sveKernelCall c w mol s (.verlet newton3 l first list) =
      some (ljRun c mol s (list.map fun j => ⟨l.getD first default, l.getD j default, newton3⟩)) := by
  refine run_of_kernel hw h hs mol hT s (.verlet newton3 l first list) ⟨⟨hl, hf, fun j hm => (hj j hm).1⟩, hlist⟩ ?_
  have hne : ∀ j ∈ list, l.getD first default ≠ l.getD j default := by
    intro j hm hh
    rw [List.getD_eq_getElem _ _ hf, List.getD_eq_getElem _ _ (hj j hm).1] at hh
    exact (hj j hm).2 ((List.Nodup.getElem_inj_iff hl).1 hh).symm
  have mem : ∀ j, j < l.length → l.getD j default ∈ l := fun j hm => by rw [List.getD_eq_getElem _ _ hm]; exact List.getElem_mem _
  intro e he
  obtain ⟨call, hcall, he⟩ := List.mem_flatMap.1 he
  obtain ⟨j, hm, rfl⟩ := List.mem_map.1 hcall
  have this : e = (l.getD first default, l.getD j default) ∨ e = (l.getD j default, l.getD first default) := by
    rcases List.mem_cons.1 he with he | he
    · exact .inl he
    · split at he
      · exact .inr (List.mem_singleton.1 he)
      · cases he
  have m1 := mem first hf
  have m2 := mem j (hj j hm).1
  rcases this with rfl | rfl
  · exact ⟨hne j hm, fun hI => hd _ m1 _ m2 (hne j hm) hI.1 hI.2.1⟩
  · exact ⟨(hne j hm).symm, fun hI => (hd _ m1 _ m2 (hne j hm) hI.2.1 hI.1).symm⟩

/-- The force a particle of a cell gets, in the words of the specification. -/
theorem C119_cell_forces_partial (hw : 0 < w) (h : SetUp c par) (hs : par.Symmetric) (mol : P → Mol K) (hT : SameParams c fun t => ∃ p, (mol p).type = t) {l : List P} (hl : l.Nodup) (hd : ExistingApart mol l l)
    (newton3 : Bool) (s : LJState P K) (a : P) : ∃ t, sveKernelCall c w mol s (.single newton3 l) = some t ∧ t.force a =
      s.force a + (if a ∈ l then ((l.filter fun b => b ≠ a).map fun b => ljForceOn par c.cutoffSquared (mol a) (mol b)).sum else 0).fin := by
  refine ⟨_, C119_cell_as_aos_partial hw h hs mol hT hl hd newton3 s, ?_⟩
  rw [ljRun_eq h hs, LJState.add_force, Pi.add_apply, events_force]
  · congr 2
    rw [(((contributions_single_perm newton3 hl).filter fun e => decide (e.1 = a)).map _).sum_eq]
    by_cases ha : a ∈ l
    · rw [if_pos ha, filter_orderedPairs hl ha, List.map_map]
      rfl
    · rw [if_neg ha, filter_orderedPairs_of_notMem ha]
      rfl
  · intro call hcall
    have hmem : (call.p, call.q) ∈ contributions (soaSingle newton3 l) := by
      unfold contributions
      exact List.mem_flatMap.2 ⟨call, hcall, List.mem_cons_self⟩
    have := (contributions_single_perm newton3 hl).mem_iff.1 hmem
    unfold orderedPairs at this
    obtain ⟨x, hx, this⟩ := List.mem_flatMap.1 this
    obtain ⟨y, hy, this⟩ := List.mem_map.1 this
    obtain ⟨rfl, rfl⟩ := Prod.ext_iff.1 this
    obtain ⟨hy, hne⟩ := List.mem_filter.1 hy
    have hne : call.p ≠ call.q := fun h' => by simp [h'] at hne
    exact ⟨hne, fun hI => hd _ hx _ hy hne hI.1 hI.2.1⟩

end

/-! The whole container, as in C74. -/

private theorem kernels_sve (c : LHParams) (s : LHState) (t : LCTraversal) (f : CellFunctorCfg Slot) : ∀ k ∈ s.kernels c t f, k.AvxLists := by
  intro k hk
  refine ⟨kernels_lists c s t f k hk, ?_⟩
  cases k with
  | aos => trivial
  | single => trivial
  | pair => trivial
  | verlet newton3 l first list =>
    exfalso
    unfold LHState.kernels at hk
    rcases List.mem_append.1 hk with hk | hk
    · unfold CellFunctorCfg.runKernels at hk
      obtain ⟨op, -, hk⟩ := List.mem_flatMap.1 hk
      cases op with
      | self i =>
        change _ ∈ f.cellKernels _ at hk
        unfold CellFunctorCfg.cellKernels at hk
        split at hk
        · split at hk
          · cases hk
          · split at hk
            · cases hk
            · rw [List.mem_singleton] at hk; cases hk
        · obtain ⟨x, -, hx⟩ := List.mem_map.1 hk; cases hx
      | pair i j dir =>
        change _ ∈ f.cellPairKernels _ _ _ at hk
        unfold CellFunctorCfg.cellPairKernels at hk
        split at hk
        · split at hk
          · cases hk
          · split at hk
            · cases hk
            · rcases List.mem_cons.1 hk with hk | hk
              · cases hk
              · split at hk
                · rw [List.mem_singleton] at hk; cases hk
                · cases hk
        · obtain ⟨x, -, hx⟩ := List.mem_map.1 hk; cases hx
    · unfold remainder2BKernels at hk
      rcases List.mem_append.1 hk with hk | hk
      · rcases List.mem_append.1 hk with hk | hk
        · obtain ⟨x, -, hx⟩ := List.mem_map.1 hk; cases hx
        · unfold remBufferBufferKernels at hk
          obtain ⟨i, -, hk⟩ := List.mem_flatMap.1 hk
          obtain ⟨jj, -, hk⟩ := List.mem_map.1 hk
          simp only at hk
          split at hk <;> cases hk
      · unfold remBufferHaloBufferKernels at hk
        obtain ⟨off, -, hk⟩ := List.mem_flatMap.1 hk
        obtain ⟨i, -, hk⟩ := List.mem_map.1 hk
        cases hk

section
variable {c : LHParams} {h : List LHAction} {s : LHState} {t : LCTraversal} {f : CellFunctorCfg Slot}
variable {lj : LJCfg Rat} {par : LJParams Rat} {threads : Nat} {jobs : List (Nat × KernelCall Slot)}

private theorem jobs_calls (J : ComputesAVX c s t f lj par threads jobs) :
    (contributions (jobs.flatMap fun j => j.2.calls)).Perm (contributions (s.interactions c t f)) := by
  have e : (jobs.flatMap fun j => j.2.calls) = (jobs.map Prod.snd).flatMap KernelCall.calls := by rw [List.flatMap_map]
  rw [e, ← kernels_calls]
  unfold contributions
  exact (J.schedule.flatMap_right _).flatMap_right _

private theorem compute_eq {w : Nat} (hw : 0 < w) (H : ComputesAfter c h s) (ht : t.Applicable c.block.dims c.block.cellLength c.il) (hf : SlotFunctor c t f)
    (J : ComputesAVX c s t f lj par threads jobs) (typeOf : Nat → Nat)
    (hT : SameParams lj fun t => ∃ p, (slotMol typeOf p).type = t) (force : Slot → V3 (Num Rat)) :
    let e := ((contributions (s.interactions c t f)).map (ljEvent par lj.cutoffSquared (slotMol typeOf))).sum
    sveCompute lj w threads (slotMol typeOf) force jobs =
      some (force + e.force, e.globals.potentialEnergySum * .fin (1 / 2) / .fin 6, e.globals.virialSum.scale (.fin (1 / 2))) := by
  intro e
  have hc := (H.ready.complete ht hf)
  have := sveCompute_eq hw J.setUp J.symmetric threads (slotMol typeOf) hT force jobs
    (fun j hj => ⟨J.threads j hj, kernels_sve c s t f _ (J.schedule.mem_iff.1 (List.mem_map.2 ⟨j, hj, rfl⟩))⟩) (by
      intro x hx
      have hx := (jobs_calls J).mem_iff.1 hx
      obtain ⟨h1, h2, h3⟩ := hc.mem x.1 x.2 (mem_contributions.2 hx)
      exact ⟨h3, fun hI => (J.position _ h1 _ h2 h3 hI.1 hI.2.1).1⟩)
  rw [this]
  have es : ((contributions (jobs.flatMap fun j => j.2.calls)).map (ljEvent par lj.cutoffSquared (slotMol typeOf))).sum = e :=
    ((jobs_calls J).map _).sum_eq
  rw [es]

private theorem no_interaction (J : ComputesAVX c s t f lj par threads jobs) (typeOf : Nat → Nat) :
    ∀ a ∈ s.slots, ∀ b ∈ s.slots, a ≠ b → (b.own = .dummy ∨ c.cutoff * c.cutoff ≤ distSq a.pos b.pos) →
      ¬ Interact lj.cutoffSquared (slotMol typeOf a) (slotMol typeOf b) := by
  intro a ha b hb hab hz hI
  rcases hz with hz | hz
  · exact hI.2.1 hz
  · have := hI.2.2
    rw [J.cutoff] at this
    exact (J.position a ha b hb hab hI.1 hI.2.1).2 (le_antisymm this hz)

private theorem sum_six {X : Type} (g : X → Rat) (l : List X) : (l.map fun e => 6 * g e).sum = 6 * (l.map g).sum := by
  induction l with
  | nil => simp
  | cons x l ih => rw [List.map_cons, List.sum_cons, ih, List.map_cons, List.sum_cons, mul_add]

/-- C119: no undefined behaviour, and forces, potential energy and virial are the textbook ones. -/
theorem C119_compute_partial {w : Nat} (hw : 0 < w) (H : ComputesAfter c h s) (ht : t.Applicable c.block.dims c.block.cellLength c.il) (hf : SlotFunctor c t f)
    (J : ComputesAVX c s t f lj par threads jobs) (typeOf : Nat → Nat)
    (hT : SameParams lj fun t => ∃ p, (slotMol typeOf p).type = t) (force : Slot → V3 (Num Rat)) :
    ∃ r, sveCompute lj w threads (slotMol typeOf) force jobs = some r ∧
      (∀ a ∈ s.slots, a.own = .owned → r.1 a = force a +
        (((s.slots.filter fun b => b ≠ a).map fun b => ljForceOn par (c.cutoff * c.cutoff) (slotMol typeOf a) (slotMol typeOf b)).sum).fin) ∧
      ljPotentialEnergy r.2 = .fin (1 / 2 * ((s.slots.filter fun a => a.own = .owned).map fun a =>
        ((s.slots.filter fun b => b ≠ a).map fun b => ljEnergyOf par (c.cutoff * c.cutoff) (slotMol typeOf a) (slotMol typeOf b)).sum).sum) ∧
      let w := ((s.slots.filter fun a => a.own = .owned).map fun a =>
        ((s.slots.filter fun b => b ≠ a).map fun b => ljVirialOf par (c.cutoff * c.cutoff) (slotMol typeOf a) (slotMol typeOf b)).sum).sum
      ljVirial r.2 = .fin (1 / 2 * (w.x + w.y + w.z)) := by
  refine ⟨_, compute_eq hw H ht hf J typeOf hT force, ?_, ?_, ?_⟩
  · intro a ha hao
    simp only
    rw [Pi.add_apply, events_force, ← J.cutoff]
    congr 2
    exact (H.ready.complete ht hf).sum_at (slots_input s H.ready.bl).nodup
      (fun a b => ljForceOn par lj.cutoffSquared (slotMol typeOf a) (slotMol typeOf b))
      (fun a ha b hb hab hz => if_neg (no_interaction J typeOf a ha b hb hab hz)) a ha hao
  · rw [events_globals, ← J.cutoff]
    unfold ljPotentialEnergy
    simp only
    have := (H.ready.complete ht hf).sum_owned (slots_input s H.ready.bl).nodup
      (fun a b => ljEnergyOf par lj.cutoffSquared (slotMol typeOf a) (slotMol typeOf b))
      (fun a ha b hb hab hz => if_neg (no_interaction J typeOf a ha b hb hab hz))
    rw [← this, sum_six (fun e : Slot × Slot => ljEnergyOf par lj.cutoffSquared (slotMol typeOf e.1) (slotMol typeOf e.2)), Num.fin_mul, Num.fin_div (by norm_num)]
    congr 1
    change (6 * _ * (1 / 2) / 6 : Rat) = _
    ring_nf
    rfl
  · intro w
    rw [events_globals]
    unfold ljVirial
    simp only
    have hz : ∀ a ∈ s.slots, ∀ b ∈ s.slots, a ≠ b → (b.own = .dummy ∨ c.cutoff * c.cutoff ≤ distSq a.pos b.pos) →
        ljVirialOf par lj.cutoffSquared (slotMol typeOf a) (slotMol typeOf b) = 0 := by
      intro a ha b hb hab hz
      unfold ljVirialOf ljForceOn
      rw [if_neg (no_interaction J typeOf a ha b hb hab hz)]
      refine V3.ext' ?_ ?_ ?_ <;> simp
    have := (H.ready.complete ht hf).sum_owned (slots_input s H.ready.bl).nodup
      (fun a b => ljVirialOf par lj.cutoffSquared (slotMol typeOf a) (slotMol typeOf b)) hz
    have hw : w = (((contributions (s.interactions c t f)).filter fun t => t.1.own = .owned).map
        fun t => ljVirialOf par lj.cutoffSquared (slotMol typeOf t.1) (slotMol typeOf t.2)).sum := by
      rw [this, J.cutoff]
    rw [hw]
    change Num.fin _ * Num.fin _ + Num.fin _ * Num.fin _ + Num.fin _ * Num.fin _ = _
    rw [Num.fin_mul, Num.fin_mul, Num.fin_mul, Num.fin_add, Num.fin_add]
    congr 1
    ring_nf
    rfl

/-- C119: switching between the plain functor (with any vector length) and the SVE functor changes nothing, on any particle. -/
theorem C119_same_as_plain_partial {w : Nat} (hw : 0 < w) (H : ComputesAfter c h s) (ht : t.Applicable c.block.dims c.block.cellLength c.il) (hf : SlotFunctor c t f)
    (J : ComputesLJ c s t f lj par threads jobs) (vecsize : Nat) (typeOf : Nat → Nat)
    (hT : SameParams lj fun t => ∃ p, (slotMol typeOf p).type = t) (force : Slot → V3 (Num Rat)) :
    sveCompute lj w threads (slotMol typeOf) force jobs = some (ljCompute lj vecsize threads (slotMol typeOf) force jobs) := by
  have hc := (H.ready.complete ht hf)
  have hap : ∀ x ∈ contributions (jobs.flatMap fun j => j.2.calls), x.1 ≠ x.2 ∧ ((slotMol typeOf x.1).own ≠ .dummy →
      (slotMol typeOf x.1).pos ≠ (slotMol typeOf x.2).pos) := by
    intro x hx
    have hx := (jobs_calls J.avx).mem_iff.1 hx
    obtain ⟨h1, h2, h3⟩ := hc.mem x.1 x.2 (mem_contributions.2 hx)
    exact ⟨h3, fun hd => (J.position _ h1 _ h2 h3 hd).1⟩
  rw [ljCompute_eq J.setUp J.symmetric vecsize threads (slotMol typeOf) force jobs
    (fun j hj => ⟨J.threads j hj, kernels_lists c s t f _ (J.schedule.mem_iff.1 (List.mem_map.2 ⟨j, hj, rfl⟩))⟩) hap,
    sveCompute_eq hw J.setUp J.symmetric threads (slotMol typeOf) hT force jobs
    (fun j hj => ⟨J.threads j hj, kernels_sve c s t f _ (J.schedule.mem_iff.1 (List.mem_map.2 ⟨j, hj, rfl⟩))⟩)
    (fun x hx => ⟨(hap x hx).1, fun hI => (hap x hx).2 hI.1⟩)]

end

/-! Concrete: registers with three lanes, so that 14 particles need two passes of four registers; ε = 1/24, σ = 1, cutoff 2. Particle 2 is deleted and lies
exactly on particle 0. -/

private def exLJ : LJCfg Rat := ⟨false, false, 4, 1, 1, 0, fun _ _ => 0, fun _ _ => 0, fun _ _ => 0⟩
private def exPar : LJParams Rat := ⟨fun _ _ => 1/24, fun _ _ => 1, fun _ _ => 0⟩
private theorem exSetUp : SetUp exLJ exPar :=
  ⟨fun _ _ => by simp [exLJ, exPar, LJCfg.eps], fun _ _ => by simp [exLJ, exPar, LJCfg.sig], fun _ _ => by simp [exLJ, exPar, LJCfg.shift]⟩
private theorem exSymm : exPar.Symmetric := ⟨fun _ _ => rfl, fun _ _ => rfl, fun _ _ => rfl⟩

private def exMol (p : Nat) : Mol Rat :=
  if p = 0 then ⟨⟨0, 0, 0⟩, 0, .owned⟩ else if p = 13 then ⟨⟨1, 0, 0⟩, 0, .halo⟩ else if p = 2 then ⟨⟨0, 0, 0⟩, 0, .dummy⟩
  else ⟨⟨5 * p, 0, 0⟩, 0, .owned⟩

private def exZero : LJState Nat Rat := ⟨fun _ => 0, .zero⟩

private theorem exApart : ExistingApart exMol (List.range 14) (List.range 14) := by unfold ExistingApart; decide +kernel

private theorem exSame : SameParams exLJ fun t => ∃ p, (exMol p).type = t := sameParams_without_mixing rfl _

example : ((sveKernelCall exLJ 3 exMol exZero (.single true (List.range 14))).map fun t => (t.force 0, t.force 13)) =
    some (⟨.fin (-1), .fin 0, .fin 0⟩, ⟨.fin 1, .fin 0, .fin 0⟩) := by
  decide +kernel

example (newton3 : Bool) : sveKernelCall exLJ 3 exMol exZero (.single newton3 (List.range 14)) =
    some (ljRun exLJ exMol exZero (soaSingle newton3 (List.range 14))) :=
  C119_cell_as_aos_partial (by decide) exSetUp exSymm exMol exSame (by decide) exApart newton3 exZero

example : ∃ t, sveKernelCall exLJ 3 exMol exZero (.single true (List.range 14)) = some t ∧ t.force 0 =
    exZero.force 0 + (([1, 2, 3, 4, 5, 6, 7, 8, 9, 10, 11, 12, 13].map fun b => ljForceOn exPar 4 (exMol 0) (exMol b)).sum).fin :=
  C119_cell_forces_partial (by decide) exSetUp exSymm exMol exSame (by decide) exApart true exZero 0

example : sveKernelCall exLJ 3 exMol exZero (.pair true [0, 6] [1, 2, 3, 4, 13]) = some (ljRun exLJ exMol exZero (soaPair true [0, 6] [1, 2, 3, 4, 13])) :=
  C119_cell_pair_as_aos_partial (by decide) exSetUp exSymm exMol exSame (by decide) (by decide) (by decide) (by unfold ExistingApart; decide +kernel) true exZero

example : sveKernelCall exLJ 3 exMol exZero (.verlet true (List.range 14) 0 [13, 5, 4, 3, 2, 1]) =
    some (ljRun exLJ exMol exZero ([13, 5, 4, 3, 2, 1].map fun j => ⟨(List.range 14).getD 0 default, (List.range 14).getD j default, true⟩)) :=
  C119_list_as_aos_partial (by decide) exSetUp exSymm exMol exSame (by decide) true 0 [13, 5, 4, 3, 2, 1] (by decide) (by decide) (by decide) exApart exZero

/-- The hypotheses of the theorems about the container are met: any applicable traversal and functor configuration, the state of C74. -/
example (t : LCTraversal) (f : CellFunctorCfg Slot) : ∃ s lj par jobs, ComputesAfter exParams exLJHistory s ∧
    ComputesLJ exParams s t f lj par 2 jobs ∧ ComputesAVX exParams s t f lj par 2 jobs ∧ (s.slots.filter fun a => a.own = .owned).length = 3 ∧
    SameParams lj fun t => ∃ p, (slotMol (fun _ => 7) p).type = t := by
  obtain ⟨s, lj, par, jobs, h1, h2, h3⟩ := exLJ_computes t f
  exact ⟨s, lj, par, jobs, h1, h2, h2.avx, h3, sameParams_one_type _ 7 fun _ => rfl⟩

/-! Two types with mixing: particles of type 0 have ε = 1/24 and those of type 1 have ε = 4/24, mixed 2/24; σ = 1. -/

private def mixLJ : LJCfg Rat :=
  ⟨false, true, 4, 0, 0, 0, fun a b => if a = b then (if a = 0 then 1 else 4) else 2, fun _ _ => 1, fun _ _ => 0⟩
private def mixPar : LJParams Rat := ⟨fun a b => (if a = b then (if a = 0 then 1 else 4) else 2) / 24, fun _ _ => 1, fun _ _ => 0⟩

private theorem mixSetUp : SetUp mixLJ mixPar := by
  refine ⟨fun i j => ?_, fun i j => ?_, fun i j => ?_⟩
  · simp only [mixLJ, mixPar, LJCfg.eps, if_true]; ring
  · simp [mixLJ, mixPar, LJCfg.sig]
  · simp [mixLJ, mixPar, LJCfg.shift]

private theorem mixSymm : mixPar.Symmetric := by
  refine ⟨fun i j => ?_, fun _ _ => rfl, fun _ _ => rfl⟩
  simp only [mixPar]
  by_cases h : i = j
  · subst h; rfl
  · rw [if_neg h, if_neg (fun h' => h h'.symm)]

/-- Particles on a line with distance 1 to the next one in the pairs (0, 1), (2, 3), ..; the types are given. -/
private def mixMol (types : List Nat) (p : Nat) : Mol Rat := ⟨⟨5 * (p / 2 : Nat) + (p % 2 : Nat), 0, 0⟩, types.getD p 0, .owned⟩

/-- Two cells with particles 0, 2 and 3: particle 2, of type 1, interacts with particle 3, of type 1, and the force is that between types 0 and 1, because
particle 0 has type 0. For any number of lanes up to four (of what the processors have, two and four). -/
theorem C119_violated_pair_first_type : ∃ (lj : LJCfg Rat) (par : LJParams Rat) (mol : Nat → Mol Rat), SetUp lj par ∧ par.Symmetric ∧
    ExistingApart mol [0, 2] [3] ∧ ∀ w ∈ [1, 2, 3, 4],
    ((sveKernelCall lj w mol exZero (.pair true [0, 2] [3])).map fun t => t.force 2) = some ⟨.fin (-2), .fin 0, .fin 0⟩ ∧
    (ljRun lj mol exZero (soaPair true [0, 2] [3])).force 2 = ⟨.fin (-4), .fin 0, .fin 0⟩ :=
  ⟨mixLJ, mixPar, mixMol [0, 0, 1, 1], mixSetUp, mixSymm, by unfold ExistingApart; decide +kernel, by decide +kernel⟩

/-- A cell with six particles, of types 0, 0, 0, 0, 1, 1, two lanes: particle 4 is in the third register and is treated as if it had the type of
particle 0. -/
theorem C119_violated_lane_types : ∃ (lj : LJCfg Rat) (par : LJParams Rat) (mol : Nat → Mol Rat), SetUp lj par ∧ par.Symmetric ∧
    ExistingApart mol [0, 1, 2, 3, 4, 5] [0, 1, 2, 3, 4, 5] ∧
    ((sveKernelCall lj 2 mol exZero (.single true [0, 1, 2, 3, 4, 5])).map fun t => t.force 5) = some ⟨.fin 2, .fin 0, .fin 0⟩ ∧
    (ljRun lj mol exZero (soaSingle true [0, 1, 2, 3, 4, 5])).force 5 = ⟨.fin 4, .fin 0, .fin 0⟩ :=
  ⟨mixLJ, mixPar, mixMol [0, 0, 0, 0, 1, 1], mixSetUp, mixSymm, by unfold ExistingApart; decide +kernel, by decide +kernel, by decide +kernel⟩

/-- The neighbour list of particle 2, of type 1, with particle 3, of type 1: as if particle 2 had the type of particle 0. -/
theorem C119_violated_list_first_type : ∃ (lj : LJCfg Rat) (par : LJParams Rat) (mol : Nat → Mol Rat), SetUp lj par ∧ par.Symmetric ∧
    ExistingApart mol [0, 1, 2, 3] [0, 1, 2, 3] ∧ ∀ w ∈ [1, 2, 3, 4],
    ((sveKernelCall lj w mol exZero (.verlet true [0, 1, 2, 3] 2 [3])).map fun t => t.force 2) = some ⟨.fin (-2), .fin 0, .fin 0⟩ ∧
    (ljRun lj mol exZero [⟨2, 3, true⟩]).force 2 = ⟨.fin (-4), .fin 0, .fin 0⟩ :=
  ⟨mixLJ, mixPar, mixMol [0, 0, 1, 1], mixSetUp, mixSymm, by unfold ExistingApart; decide +kernel, by decide +kernel⟩

/-- Neighbours that are in the list twice: as for the AVX functor, one of the updates is lost. -/
theorem C119_list_needs_distinct_neighbours :
    ∃ mol : Nat → Mol Rat,
      ((sveKernelCall exLJ 2 mol exZero (.verlet true [0, 1] 0 [1, 1])).map fun t => (t.force 0, t.force 1)) =
        some (⟨.fin (-2), .fin 0, .fin 0⟩, ⟨.fin 1, .fin 0, .fin 0⟩) ∧
      (ljRun exLJ mol exZero [⟨0, 1, true⟩, ⟨0, 1, true⟩]).force 1 = ⟨.fin 2, .fin 0, .fin 0⟩ := by
  refine ⟨mixMol [], ?_, ?_⟩ <;> decide +kernel

end Verif
