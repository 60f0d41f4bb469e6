import Verif.Lemmas.LJAVXSystem
import Verif.Props.C73
import Verif.Props.C74
/-!
# C100 — the vectorised (AVX) Lennard-Jones functor computes the same physics

`LJFunctorAVX` handles four particles at a time in vector registers and masks the entries that are left over. Whatever the number of particles,
every kernel stays inside of the arrays it is given (it is not `none`) and has the effect of calling the plain AoS kernel of `LJFunctor` (C73) for
every pair of particles. So `computeInteractions` yields the textbook forces, potential energy and virial, as with `LJFunctor` (C74); but deleted
particles may lie anywhere, also exactly on an existing particle.

Neighbour lists have to be without duplicates: with Newton 3 the forces of four neighbours are loaded, changed and stored together
(`C100_list_needs_distinct_neighbours`).
-/
namespace Verif
open Spec

section
variable {K : Type} [Field K] [LinearOrder K] [IsStrictOrderedRing K] {P : Type} [DecidableEq P] [Inhabited P]
variable {c : LJCfg K} {par : LJParams K}

/-- No two existing particles of the lists sit on the same position. Deleted ones may. -/
def ExistingApart (mol : P → Mol K) (l₁ l₂ : List P) : Prop :=
  ∀ a ∈ l₁, ∀ b ∈ l₂, a ≠ b → (mol a).own ≠ .dummy → (mol b).own ≠ .dummy → (mol a).pos ≠ (mol b).pos

private theorem run_of_kernel (h : SetUp c par) (hs : par.Symmetric) (mol : P → Mol K) (s : LJState P K) (k : KernelCall P) (hl : k.AvxLists)
    (hk : ∀ e ∈ contributions k.calls, e.1 ≠ e.2 ∧ (Interact c.cutoffSquared (mol e.1) (mol e.2) → (mol e.1).pos ≠ (mol e.2).pos)) :
    avxKernelCall c mol s k = some (ljRun c mol s k.calls) := by
  rw [avxKernelCall_eq h hs mol s k hl hk, ljRun_eq h hs]
  intro call hcall
  have hmem : (call.p, call.q) ∈ contributions k.calls := by
    unfold contributions
    exact List.mem_flatMap.2 ⟨call, hcall, List.mem_cons_self⟩
  exact hk _ hmem

/-- One cell: the kernel does to the forces, the potential energy and the virial exactly what the AoS kernel does when it is called for every pair of
particles of the cell, with or without Newton 3. -/
theorem C100_cell_as_aos (h : SetUp c par) (hs : par.Symmetric) (mol : P → Mol K) {l : List P} (hl : l.Nodup) (hd : ExistingApart mol l l)
    (newton3 : Bool) (s : LJState P K) : avxKernelCall c mol s (.single newton3 l) = some (ljRun c mol s (soaSingle newton3 l)) := by
  refine run_of_kernel h hs mol s (.single newton3 l) ⟨hl, trivial⟩ ?_
  intro e he
  have := (contributions_single_perm newton3 hl).mem_iff.1 he
  unfold orderedPairs at this
  obtain ⟨x, hx, this⟩ := List.mem_flatMap.1 this
  obtain ⟨y, hy, rfl⟩ := List.mem_map.1 this
  obtain ⟨hy, hne⟩ := List.mem_filter.1 hy
  have hne : x ≠ y := fun h' => by simp [h'] at hne
  exact ⟨hne, fun hI => hd _ hx _ hy hne hI.1 hI.2.1⟩

/-- Two cells: likewise. -/
theorem C100_cell_pair_as_aos (h : SetUp c par) (hs : par.Symmetric) (mol : P → Mol K) {l₁ l₂ : List P} (hl₁ : l₁.Nodup) (hl₂ : l₂.Nodup)
    (hdis : ∀ p ∈ l₁, p ∉ l₂) (hd : ExistingApart mol l₁ l₂) (newton3 : Bool) (s : LJState P K) :
    avxKernelCall c mol s (.pair newton3 l₁ l₂) = some (ljRun c mol s (soaPair newton3 l₁ l₂)) := by
  have hne : ∀ a ∈ l₁, ∀ b ∈ l₂, a ≠ b := fun a ha b hb h' => hdis a ha (h' ▸ hb)
  refine run_of_kernel h hs mol s (.pair newton3 l₁ l₂) ⟨⟨hl₁, hl₂⟩, trivial⟩ ?_
  intro e he
  obtain ⟨call, hcall, he⟩ := List.mem_flatMap.1 he
  change call ∈ soaPair newton3 l₁ l₂ at hcall
  unfold soaPair crossLoop at hcall
  obtain ⟨t, ht, rfl⟩ := List.mem_map.1 hcall
  obtain ⟨x, hx, ht⟩ := List.mem_flatMap.1 ht
  obtain ⟨y, hy, rfl⟩ := List.mem_map.1 ht
  have hy : y ∈ l₂ := (List.takeWhile_sublist _).subset hy
  have hxy := hne x hx y hy
  have : e = (x, y) ∨ e = (y, x) := by
    rcases List.mem_cons.1 he with he | he
    · exact .inl he
    · split at he
      · exact .inr (List.mem_singleton.1 he)
      · cases he
  rcases this with rfl | rfl
  · exact ⟨hxy, fun hI => hd x hx y hy hxy hI.1 hI.2.1⟩
  · exact ⟨hxy.symm, fun hI => (hd x hx y hy hxy hI.2.1 hI.1).symm⟩

/-- A neighbour list: likewise. -/
theorem C100_list_as_aos (h : SetUp c par) (hs : par.Symmetric) (mol : P → Mol K) {l : List P} (hl : l.Nodup) (newton3 : Bool)
    (first : Nat) (list : List Nat) (hlist : list.Nodup) (hf : first < l.length) (hj : ∀ j ∈ list, j < l.length ∧ j ≠ first)
    (hd : ExistingApart mol l l) (s : LJState P K) :
    avxKernelCall c mol s (.verlet newton3 l first list) =
      some (ljRun c mol s (list.map fun j => ⟨l.getD first default, l.getD j default, newton3⟩)) := by
  refine run_of_kernel h hs mol s (.verlet newton3 l first list) ⟨⟨hl, hf, fun j hm => (hj j hm).1⟩, hlist⟩ ?_
  have hne : ∀ j ∈ list, l.getD first default ≠ l.getD j default := by
    intro j hm hh
    rw [List.getD_eq_getElem _ _ hf, List.getD_eq_getElem _ _ (hj j hm).1] at hh
    exact (hj j hm).2 ((List.Nodup.getElem_inj_iff hl).1 hh).symm
  have mem : ∀ j, j < l.length → l.getD j default ∈ l := fun j hm => by rw [List.getD_eq_getElem _ _ hm]; exact List.getElem_mem _
  intro e he
  obtain ⟨call, hcall, he⟩ := List.mem_flatMap.1 he
  obtain ⟨j, hm, rfl⟩ := List.mem_map.1 hcall
  have this : e = (l.getD first default, l.getD j default) ∨ e = (l.getD j default, l.getD first default) := by
    rcases List.mem_cons.1 he with he | he
    · exact .inl he
    · split at he
      · exact .inr (List.mem_singleton.1 he)
      · cases he
  have m1 := mem first hf
  have m2 := mem j (hj j hm).1
  rcases this with rfl | rfl
  · exact ⟨hne j hm, fun hI => hd _ m1 _ m2 (hne j hm) hI.1 hI.2.1⟩
  · exact ⟨(hne j hm).symm, fun hI => (hd _ m1 _ m2 (hne j hm) hI.2.1 hI.1).symm⟩

/-- The force a particle of a cell gets, in the words of the specification. -/
theorem C100_cell_forces (h : SetUp c par) (hs : par.Symmetric) (mol : P → Mol K) {l : List P} (hl : l.Nodup) (hd : ExistingApart mol l l)
    (newton3 : Bool) (s : LJState P K) (a : P) : ∃ t, avxKernelCall c mol s (.single newton3 l) = some t ∧ t.force a =
      s.force a + (if a ∈ l then ((l.filter fun b => b ≠ a).map fun b => ljForceOn par c.cutoffSquared (mol a) (mol b)).sum else 0).fin := by
  refine ⟨_, C100_cell_as_aos h hs mol hl hd newton3 s, ?_⟩
  rw [ljRun_eq h hs, LJState.add_force, Pi.add_apply, events_force]
  · congr 2
    rw [(((contributions_single_perm newton3 hl).filter fun e => decide (e.1 = a)).map _).sum_eq]
    by_cases ha : a ∈ l
    · rw [if_pos ha, filter_orderedPairs hl ha, List.map_map]
      rfl
    · rw [if_neg ha, filter_orderedPairs_of_notMem ha]
      rfl
  · intro call hcall
    have hmem : (call.p, call.q) ∈ contributions (soaSingle newton3 l) := by
      unfold contributions
      exact List.mem_flatMap.2 ⟨call, hcall, List.mem_cons_self⟩
    have := (contributions_single_perm newton3 hl).mem_iff.1 hmem
    unfold orderedPairs at this
    obtain ⟨x, hx, this⟩ := List.mem_flatMap.1 this
    obtain ⟨y, hy, this⟩ := List.mem_map.1 this
    obtain ⟨rfl, rfl⟩ := Prod.ext_iff.1 this
    obtain ⟨hy, hne⟩ := List.mem_filter.1 hy
    have hne : call.p ≠ call.q := fun h' => by simp [h'] at hne
    exact ⟨hne, fun hI => hd _ hx _ hy hne hI.1 hI.2.1⟩

end

/-! The whole container, as in C74. -/

/-- `LJFunctorAVX` is used for `computeInteractions` of a state. As `ComputesLJ`, but deleted particles may lie anywhere. -/
structure ComputesAVX (c : LHParams) (s : LHState) (t : LCTraversal) (f : CellFunctorCfg Slot) (lj : LJCfg Rat) (par : LJParams Rat)
    (threads : Nat) (jobs : List (Nat × KernelCall Slot)) : Prop where
  setUp : SetUp lj par
  symmetric : par.Symmetric
  cutoff : lj.cutoffSquared = c.cutoff * c.cutoff
  position : ∀ a ∈ s.slots, ∀ b ∈ s.slots, a ≠ b → a.own ≠ .dummy → b.own ≠ .dummy →
    a.pos ≠ b.pos ∧ distSq a.pos b.pos ≠ c.cutoff * c.cutoff
  schedule : (jobs.map Prod.snd).Perm (s.kernels c t f)
  threads : ∀ j ∈ jobs, j.1 < threads

theorem ComputesLJ.avx {c : LHParams} {s : LHState} {t : LCTraversal} {f : CellFunctorCfg Slot} {lj : LJCfg Rat} {par : LJParams Rat}
    {threads : Nat} {jobs : List (Nat × KernelCall Slot)} (J : ComputesLJ c s t f lj par threads jobs) : ComputesAVX c s t f lj par threads jobs :=
  ⟨J.setUp, J.symmetric, J.cutoff, fun a ha b hb hab h1 _ => J.position a ha b hb hab h1, J.schedule, J.threads⟩

private theorem kernels_avx (c : LHParams) (s : LHState) (t : LCTraversal) (f : CellFunctorCfg Slot) : ∀ k ∈ s.kernels c t f, k.AvxLists := by
  intro k hk
  refine ⟨kernels_lists c s t f k hk, ?_⟩
  cases k with
  | aos => trivial
  | single => trivial
  | pair => trivial
  | verlet newton3 l first list =>
    exfalso
    unfold LHState.kernels at hk
    rcases List.mem_append.1 hk with hk | hk
    · unfold CellFunctorCfg.runKernels at hk
      obtain ⟨op, -, hk⟩ := List.mem_flatMap.1 hk
      cases op with
      | self i =>
        change _ ∈ f.cellKernels _ at hk
        unfold CellFunctorCfg.cellKernels at hk
        split at hk
        · split at hk
          · cases hk
          · split at hk
            · cases hk
            · rw [List.mem_singleton] at hk; cases hk
        · obtain ⟨x, -, hx⟩ := List.mem_map.1 hk; cases hx
      | pair i j dir =>
        change _ ∈ f.cellPairKernels _ _ _ at hk
        unfold CellFunctorCfg.cellPairKernels at hk
        split at hk
        · split at hk
          · cases hk
          · split at hk
            · cases hk
            · rcases List.mem_cons.1 hk with hk | hk
              · cases hk
              · split at hk
                · rw [List.mem_singleton] at hk; cases hk
                · cases hk
        · obtain ⟨x, -, hx⟩ := List.mem_map.1 hk; cases hx
    · unfold remainder2BKernels at hk
      rcases List.mem_append.1 hk with hk | hk
      · rcases List.mem_append.1 hk with hk | hk
        · obtain ⟨x, -, hx⟩ := List.mem_map.1 hk; cases hx
        · unfold remBufferBufferKernels at hk
          obtain ⟨i, -, hk⟩ := List.mem_flatMap.1 hk
          obtain ⟨jj, -, hk⟩ := List.mem_map.1 hk
          simp only at hk
          split at hk <;> cases hk
      · unfold remBufferHaloBufferKernels at hk
        obtain ⟨off, -, hk⟩ := List.mem_flatMap.1 hk
        obtain ⟨i, -, hk⟩ := List.mem_map.1 hk
        cases hk

section
variable {c : LHParams} {h : List LHAction} {s : LHState} {t : LCTraversal} {f : CellFunctorCfg Slot}
variable {lj : LJCfg Rat} {par : LJParams Rat} {threads : Nat} {jobs : List (Nat × KernelCall Slot)}

private theorem jobs_calls (J : ComputesAVX c s t f lj par threads jobs) :
    (contributions (jobs.flatMap fun j => j.2.calls)).Perm (contributions (s.interactions c t f)) := by
  have e : (jobs.flatMap fun j => j.2.calls) = (jobs.map Prod.snd).flatMap KernelCall.calls := by rw [List.flatMap_map]
  rw [e, ← kernels_calls]
  unfold contributions
  exact (J.schedule.flatMap_right _).flatMap_right _

private theorem compute_eq (H : ComputesAfter c h s) (ht : t.Applicable c.block.dims c.block.cellLength c.il) (hf : SlotFunctor c t f)
    (J : ComputesAVX c s t f lj par threads jobs) (typeOf : Nat → Nat) (force : Slot → V3 (Num Rat)) :
    let e := ((contributions (s.interactions c t f)).map (ljEvent par lj.cutoffSquared (slotMol typeOf))).sum
    avxCompute lj threads (slotMol typeOf) force jobs =
      some (force + e.force, e.globals.potentialEnergySum * .fin (1 / 2) / .fin 6, e.globals.virialSum.scale (.fin (1 / 2))) := by
  intro e
  have hc := (H.ready.complete ht hf)
  have := avxCompute_eq J.setUp J.symmetric threads (slotMol typeOf) force jobs
    (fun j hj => ⟨J.threads j hj, kernels_avx c s t f _ (J.schedule.mem_iff.1 (List.mem_map.2 ⟨j, hj, rfl⟩))⟩) (by
      intro x hx
      have hx := (jobs_calls J).mem_iff.1 hx
      obtain ⟨h1, h2, h3⟩ := hc.mem x.1 x.2 (mem_contributions.2 hx)
      exact ⟨h3, fun hI => (J.position _ h1 _ h2 h3 hI.1 hI.2.1).1⟩)
  rw [this]
  have es : ((contributions (jobs.flatMap fun j => j.2.calls)).map (ljEvent par lj.cutoffSquared (slotMol typeOf))).sum = e :=
    ((jobs_calls J).map _).sum_eq
  rw [es]

private theorem no_interaction (J : ComputesAVX c s t f lj par threads jobs) (typeOf : Nat → Nat) :
    ∀ a ∈ s.slots, ∀ b ∈ s.slots, a ≠ b → (b.own = .dummy ∨ c.cutoff * c.cutoff ≤ distSq a.pos b.pos) →
      ¬ Interact lj.cutoffSquared (slotMol typeOf a) (slotMol typeOf b) := by
  intro a ha b hb hab hz hI
  rcases hz with hz | hz
  · exact hI.2.1 hz
  · have := hI.2.2
    rw [J.cutoff] at this
    exact (J.position a ha b hb hab hI.1 hI.2.1).2 (le_antisymm this hz)

private theorem sum_six {X : Type} (g : X → Rat) (l : List X) : (l.map fun e => 6 * g e).sum = 6 * (l.map g).sum := by
  induction l with
  | nil => simp
  | cons x l ih => rw [List.map_cons, List.sum_cons, ih, List.map_cons, List.sum_cons, mul_add]

/-- C100: no undefined behaviour, and forces, potential energy and virial are the textbook ones. -/
theorem C100_compute (H : ComputesAfter c h s) (ht : t.Applicable c.block.dims c.block.cellLength c.il) (hf : SlotFunctor c t f)
    (J : ComputesAVX c s t f lj par threads jobs) (typeOf : Nat → Nat) (force : Slot → V3 (Num Rat)) :
    ∃ r, avxCompute lj threads (slotMol typeOf) force jobs = some r ∧
      (∀ a ∈ s.slots, a.own = .owned → r.1 a = force a +
        (((s.slots.filter fun b => b ≠ a).map fun b => ljForceOn par (c.cutoff * c.cutoff) (slotMol typeOf a) (slotMol typeOf b)).sum).fin) ∧
      ljPotentialEnergy r.2 = .fin (1 / 2 * ((s.slots.filter fun a => a.own = .owned).map fun a =>
        ((s.slots.filter fun b => b ≠ a).map fun b => ljEnergyOf par (c.cutoff * c.cutoff) (slotMol typeOf a) (slotMol typeOf b)).sum).sum) ∧
      let w := ((s.slots.filter fun a => a.own = .owned).map fun a =>
        ((s.slots.filter fun b => b ≠ a).map fun b => ljVirialOf par (c.cutoff * c.cutoff) (slotMol typeOf a) (slotMol typeOf b)).sum).sum
      ljVirial r.2 = .fin (1 / 2 * (w.x + w.y + w.z)) := by
  refine ⟨_, compute_eq H ht hf J typeOf force, ?_, ?_, ?_⟩
  · intro a ha hao
    simp only
    rw [Pi.add_apply, events_force, ← J.cutoff]
    congr 2
    exact (H.ready.complete ht hf).sum_at (slots_input s H.ready.bl).nodup
      (fun a b => ljForceOn par lj.cutoffSquared (slotMol typeOf a) (slotMol typeOf b))
      (fun a ha b hb hab hz => if_neg (no_interaction J typeOf a ha b hb hab hz)) a ha hao
  · rw [events_globals, ← J.cutoff]
    unfold ljPotentialEnergy
    simp only
    have := (H.ready.complete ht hf).sum_owned (slots_input s H.ready.bl).nodup
      (fun a b => ljEnergyOf par lj.cutoffSquared (slotMol typeOf a) (slotMol typeOf b))
      (fun a ha b hb hab hz => if_neg (no_interaction J typeOf a ha b hb hab hz))
    rw [← this, sum_six (fun e : Slot × Slot => ljEnergyOf par lj.cutoffSquared (slotMol typeOf e.1) (slotMol typeOf e.2)), Num.fin_mul, Num.fin_div (by norm_num)]
    congr 1
    change (6 * _ * (1 / 2) / 6 : Rat) = _
    ring_nf
    rfl
  · intro w
    rw [events_globals]
    unfold ljVirial
    simp only
    have hz : ∀ a ∈ s.slots, ∀ b ∈ s.slots, a ≠ b → (b.own = .dummy ∨ c.cutoff * c.cutoff ≤ distSq a.pos b.pos) →
        ljVirialOf par lj.cutoffSquared (slotMol typeOf a) (slotMol typeOf b) = 0 := by
      intro a ha b hb hab hz
      unfold ljVirialOf ljForceOn
      rw [if_neg (no_interaction J typeOf a ha b hb hab hz)]
      refine V3.ext' ?_ ?_ ?_ <;> simp
    have := (H.ready.complete ht hf).sum_owned (slots_input s H.ready.bl).nodup
      (fun a b => ljVirialOf par lj.cutoffSquared (slotMol typeOf a) (slotMol typeOf b)) hz
    have hw : w = (((contributions (s.interactions c t f)).filter fun t => t.1.own = .owned).map
        fun t => ljVirialOf par lj.cutoffSquared (slotMol typeOf t.1) (slotMol typeOf t.2)).sum := by
      rw [this, J.cutoff]
    rw [hw]
    change Num.fin _ * Num.fin _ + Num.fin _ * Num.fin _ + Num.fin _ * Num.fin _ = _
    rw [Num.fin_mul, Num.fin_mul, Num.fin_mul, Num.fin_add, Num.fin_add]
    congr 1
    ring_nf
    rfl

/-- C100: switching between the plain functor (with any vector length) and the AVX functor changes nothing, on any particle. -/
theorem C100_same_as_plain (H : ComputesAfter c h s) (ht : t.Applicable c.block.dims c.block.cellLength c.il) (hf : SlotFunctor c t f)
    (J : ComputesLJ c s t f lj par threads jobs) (vecsize : Nat) (typeOf : Nat → Nat) (force : Slot → V3 (Num Rat)) :
    avxCompute lj threads (slotMol typeOf) force jobs = some (ljCompute lj vecsize threads (slotMol typeOf) force jobs) := by
  have hc := (H.ready.complete ht hf)
  have hap : ∀ x ∈ contributions (jobs.flatMap fun j => j.2.calls), x.1 ≠ x.2 ∧ ((slotMol typeOf x.1).own ≠ .dummy →
      (slotMol typeOf x.1).pos ≠ (slotMol typeOf x.2).pos) := by
    intro x hx
    have hx := (jobs_calls J.avx).mem_iff.1 hx
    obtain ⟨h1, h2, h3⟩ := hc.mem x.1 x.2 (mem_contributions.2 hx)
    exact ⟨h3, fun hd => (J.position _ h1 _ h2 h3 hd).1⟩
  rw [ljCompute_eq J.setUp J.symmetric vecsize threads (slotMol typeOf) force jobs
    (fun j hj => ⟨J.threads j hj, kernels_lists c s t f _ (J.schedule.mem_iff.1 (List.mem_map.2 ⟨j, hj, rfl⟩))⟩) hap,
    avxCompute_eq J.setUp J.symmetric threads (slotMol typeOf) force jobs
    (fun j hj => ⟨J.threads j hj, kernels_avx c s t f _ (J.schedule.mem_iff.1 (List.mem_map.2 ⟨j, hj, rfl⟩))⟩)
    (fun x hx => ⟨(hap x hx).1, fun hI => (hap x hx).2 hI.1⟩)]

end

/-! Concrete: seven particles, so there is a full register and a rest of two or three; ε = 1/24, σ = 1, cutoff 2. Particle 2 is deleted and lies
exactly on particle 0. -/

private def exLJ : LJCfg Rat := ⟨false, false, 4, 1, 1, 0, fun _ _ => 0, fun _ _ => 0, fun _ _ => 0⟩
private def exPar : LJParams Rat := ⟨fun _ _ => 1/24, fun _ _ => 1, fun _ _ => 0⟩
private theorem exSetUp : SetUp exLJ exPar :=
  ⟨fun _ _ => by simp [exLJ, exPar, LJCfg.eps], fun _ _ => by simp [exLJ, exPar, LJCfg.sig], fun _ _ => by simp [exLJ, exPar, LJCfg.shift]⟩
private theorem exSymm : exPar.Symmetric := ⟨fun _ _ => rfl, fun _ _ => rfl, fun _ _ => rfl⟩

private def exMol (p : Nat) : Mol Rat :=
  if p = 0 then ⟨⟨0, 0, 0⟩, 0, .owned⟩ else if p = 1 then ⟨⟨1, 0, 0⟩, 0, .halo⟩ else if p = 2 then ⟨⟨0, 0, 0⟩, 0, .dummy⟩
  else ⟨⟨5 * p, 0, 0⟩, 0, .owned⟩

private def exZero : LJState Nat Rat := ⟨fun _ => 0, .zero⟩

private theorem exApart : ExistingApart exMol [0, 1, 2, 3, 4, 5, 6] [0, 1, 2, 3, 4, 5, 6] := by unfold ExistingApart; decide +kernel

example : ((avxKernelCall exLJ exMol exZero (.single true [0, 1, 2, 3, 4, 5, 6])).map fun t => t.force 0) = some ⟨.fin (-1), .fin 0, .fin 0⟩ := by
  decide +kernel

example (newton3 : Bool) : avxKernelCall exLJ exMol exZero (.single newton3 [0, 1, 2, 3, 4, 5, 6]) =
    some (ljRun exLJ exMol exZero (soaSingle newton3 [0, 1, 2, 3, 4, 5, 6])) :=
  C100_cell_as_aos exSetUp exSymm exMol (by decide) exApart newton3 exZero

example : ∃ t, avxKernelCall exLJ exMol exZero (.single true [0, 1, 2, 3, 4, 5, 6]) = some t ∧ t.force 0 =
    exZero.force 0 + (([1, 2, 3, 4, 5, 6].map fun b => ljForceOn exPar 4 (exMol 0) (exMol b)).sum).fin :=
  C100_cell_forces exSetUp exSymm exMol (by decide) exApart true exZero 0

example : avxKernelCall exLJ exMol exZero (.pair true [0, 6] [1, 2, 3, 4, 5]) = some (ljRun exLJ exMol exZero (soaPair true [0, 6] [1, 2, 3, 4, 5])) :=
  C100_cell_pair_as_aos exSetUp exSymm exMol (by decide) (by decide) (by decide) (by unfold ExistingApart; decide +kernel) true exZero

example : avxKernelCall exLJ exMol exZero (.verlet true [0, 1, 2, 3, 4, 5, 6] 0 [6, 5, 4, 3, 2, 1]) =
    some (ljRun exLJ exMol exZero ([6, 5, 4, 3, 2, 1].map fun j => ⟨[0, 1, 2, 3, 4, 5, 6].getD 0 default, [0, 1, 2, 3, 4, 5, 6].getD j default, true⟩)) :=
  C100_list_as_aos exSetUp exSymm exMol (by decide) true 0 [6, 5, 4, 3, 2, 1] (by decide) (by decide) (by decide) exApart exZero

/-- The neighbours have to be different: if one is twice in the same four, the second update of its force overwrites the first. The neighbour lists
of AutoPas have no duplicates (C53). -/
theorem C100_list_needs_distinct_neighbours :
    ∃ mol : Nat → Mol Rat,
      ((avxKernelCall exLJ mol exZero (.verlet true [0, 1] 0 [1, 1])).map fun t => (t.force 0, t.force 1)) =
        some (⟨.fin (-2), .fin 0, .fin 0⟩, ⟨.fin 1, .fin 0, .fin 0⟩) ∧
      (ljRun exLJ mol exZero [⟨0, 1, true⟩, ⟨0, 1, true⟩]).force 1 = ⟨.fin 2, .fin 0, .fin 0⟩ := by
  refine ⟨exMol, ?_, ?_⟩ <;> decide +kernel

/-- The hypotheses of the theorems about the container are met: any applicable traversal and functor configuration, the state of C74. -/
example (t : LCTraversal) (f : CellFunctorCfg Slot) : ∃ s lj par jobs, ComputesAfter exParams exLJHistory s ∧
    ComputesLJ exParams s t f lj par 2 jobs ∧ ComputesAVX exParams s t f lj par 2 jobs ∧ (s.slots.filter fun a => a.own = .owned).length = 3 := by
  obtain ⟨s, lj, par, jobs, h1, h2, h3⟩ := exLJ_computes t f
  exact ⟨s, lj, par, jobs, h1, h2, h2.avx, h3⟩

end Verif
