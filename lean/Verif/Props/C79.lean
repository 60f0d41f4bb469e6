import Verif.Lemmas.ATComplete
import Verif.Lemmas.TripleSums
import Verif.Props.C74
import Verif.Props.C78
/-!
# C79 — computeInteractions with the Axilrod-Teller functor yields the physics

After every history of operations, with any number of threads and any distribution of the calls over them.
`InGeneralPosition` as in C74.
-/
namespace Verif
open Spec

/-- A position with real coordinates. -/
noncomputable def V3.toReal (p : V3 Rat) : V3 ℝ := ⟨p.x, p.y, p.z⟩

/-- What the functor reads of a stored particle; the types are given by the IDs. -/
noncomputable def slotMolReal (typeOf : Nat → Nat) (x : Slot) : Mol ℝ := ⟨x.pos.toReal, typeOf x.particle.id, x.own⟩

/-- The Axilrod-Teller functor is used for `computeInteractions` of a state, with the cutoff of the simulation; `jobs` are its calls in any order,
each on any of the threads. -/
structure ComputesAT (c : LHParams) (s : LHState) (f : CellFunctorCfg Slot) (a : ATCfg ℝ) (threads : Nat) (jobs : List (Nat × TripleCall Slot)) :
    Prop where
  nu : SymmetricNu a
  cutoff : a.cutoffSquared = ((c.cutoff * c.cutoff : Rat) : ℝ)
  position : InGeneralPosition c.cutoff s.slots
  schedule : (jobs.map Prod.snd).Perm (s.interactions3 c f)
  threads : ∀ j ∈ jobs, j.1 < threads

open Classical in
/-- The Axilrod-Teller energy of three particles, zero unless they exist and all three distances are at most the cutoff. -/
noncomputable def atTriple (a : ATCfg ℝ) (i j k : Mol ℝ) : ℝ :=
  if Interact3 a.cutoffSquared i j k then atU (a.nuOf i.type j.type k.type) i.pos j.pos k.pos else 0

open Classical in
/-- The energy of `x`, put to the place `q`, with all pairs of the other particles that now interact with it. -/
noncomputable def atEnergyAt (a : ATCfg ℝ) (mol : Slot → Mol ℝ) (all : List Slot) (x : Slot) (q : V3 ℝ) : ℝ :=
  (((unorderedPairs (all.filter fun y => y ≠ x)).filter fun t => Interact3 a.cutoffSquared (mol x) (mol t.1) (mol t.2)).map
    fun t => atU (a.nuOf (mol x).type (mol t.1).type (mol t.2).type) q (mol t.1).pos (mol t.2).pos).sum

private theorem toReal_inj {p q : V3 Rat} (h : p.toReal = q.toReal) : p = q := by
  have hx := congrArg V3.x h
  have hy := congrArg V3.y h
  have hz := congrArg V3.z h
  simp only [V3.toReal, Rat.cast_inj] at hx hy hz
  exact V3.ext' hx hy hz

private theorem normSq_toReal (p q : V3 Rat) : normSq (p.toReal - q.toReal) = ((distSq p q : Rat) : ℝ) := by
  unfold normSq distSq V3.toReal
  simp only [V3.sub_x, V3.sub_y, V3.sub_z]
  push_cast
  ring

section
variable {c : LHParams} {h : List LHAction} {s : LHState} {f : CellFunctorCfg Slot}
variable {a : ATCfg ℝ} {threads : Nat} {jobs : List (Nat × TripleCall Slot)}

private theorem at_contributions_perm (J : ComputesAT c s f a threads jobs) :
    (contributions3 (jobs.map Prod.snd)).Perm (contributions3 (s.interactions3 c f)) :=
  J.schedule.flatMap_right _

private theorem apart (J : ComputesAT c s f a threads jobs) (typeOf : Nat → Nat) {x y z : Slot} (hx : x ∈ s.slots) (hy : y ∈ s.slots)
    (hz : z ∈ s.slots) (hxy : x ≠ y) (hxz : x ≠ z) (hyz : y ≠ z) : Apart3 (slotMolReal typeOf) x y z := fun o1 o2 o3 =>
  ⟨fun h => (J.position x hx y hy hxy o1).1 (toReal_inj h), fun h => (J.position y hy z hz hyz o2).1 (toReal_inj h),
    fun h => (J.position z hz x hx hxz.symm o3).1 (toReal_inj h)⟩

private theorem at_stored (H : ComputesAfter c h s) (hf : C01Functor3 c.il Slot.pos Slot.own f) {t : Slot × Slot × Slot}
    (ht : t ∈ contributions3 (s.interactions3 c f)) :
    t.1 ∈ s.slots ∧ t.2.1 ∈ s.slots ∧ t.2.2 ∈ s.slots ∧ t.1 ≠ t.2.1 ∧ t.1 ≠ t.2.2 ∧ t.2.1 ≠ t.2.2 := by
  refine (H.ready.complete3 hf).mem _ _ _ ?_
  unfold timesReceived3
  rw [← Nat.pos_iff_ne_zero, List.countP_pos_iff]
  exact ⟨t, ht, by simp⟩

private theorem compute_eq (H : ComputesAfter c h s) (hf : C01Functor3 c.il Slot.pos Slot.own f) (J : ComputesAT c s f a threads jobs)
    (typeOf : Nat → Nat) (force : Slot → V3 (Num ℝ)) :
    let t := ((contributions3 (s.interactions3 c f)).map (atEvent a (slotMolReal typeOf))).sum
    atCompute sqrtR a threads (slotMolReal typeOf) force jobs =
      (force + t.force, t.globals.potentialEnergySum / .fin 3 / .fin 3, t.globals.virialSum) := by
  intro t
  have := atCompute_eq J.nu threads (slotMolReal typeOf) force jobs (by
    intro j hj
    refine ⟨J.threads j hj, ?_⟩
    have hm : (j.2.p, j.2.q, j.2.r) ∈ contributions3 (s.interactions3 c f) := by
      unfold contributions3
      exact List.mem_flatMap.2 ⟨j.2, J.schedule.mem_iff.1 (List.mem_map.2 ⟨j, hj, rfl⟩), List.mem_cons_self⟩
    obtain ⟨m1, m2, m3, n1, n2, n3⟩ := at_stored H hf hm
    exact apart J typeOf m1 m2 m3 n1 n2 n3)
  rw [this, show ((contributions3 (jobs.map Prod.snd)).map (atEvent a (slotMolReal typeOf))).sum = t from
    ((at_contributions_perm J).map _).sum_eq]

private theorem strict (J : ComputesAT c s f a threads jobs) (typeOf : Nat → Nat) {x y z : Slot} (hx : x ∈ s.slots) (hy : y ∈ s.slots)
    (hz : z ∈ s.slots) (hxy : x ≠ y) (hxz : x ≠ z) (hyz : y ≠ z)
    (hI : Interact3 a.cutoffSquared (slotMolReal typeOf x) (slotMolReal typeOf y) (slotMolReal typeOf z)) :
    (y.own ≠ .dummy ∧ z.own ≠ .dummy) ∧ Close Slot.pos c.cutoff x y ∧ Close Slot.pos c.cutoff x z ∧ Close Slot.pos c.cutoff y z := by
  obtain ⟨⟨o1, o2, d1⟩, ⟨-, o3, d2⟩, -, -, d3⟩ := hI
  rw [J.cutoff] at d1 d2 d3
  have key : ∀ u v : Slot, u ∈ s.slots → v ∈ s.slots → u ≠ v → u.own ≠ .dummy →
      normSq ((slotMolReal typeOf u).pos - (slotMolReal typeOf v).pos) ≤ ((c.cutoff * c.cutoff : Rat) : ℝ) → Close Slot.pos c.cutoff u v := by
    intro u v hu hv huv ho hd
    have e : normSq ((slotMolReal typeOf u).pos - (slotMolReal typeOf v).pos) = ((distSq u.pos v.pos : Rat) : ℝ) := normSq_toReal _ _
    rw [e, Rat.cast_le] at hd
    exact lt_of_le_of_ne hd (J.position u hu v hv huv ho).2
  refine ⟨⟨o2, o3⟩, key x y hx hy hxy o1 d1, ?_, key y z hy hz hyz o2 d2⟩
  exact key x z hx hz hxz o1 (by rw [normSq_comm]; exact d3)

private theorem interact3_last {rc2 : ℝ} {i j k : Mol ℝ} : Interact3 rc2 i j k ↔ Interact3 rc2 i k j := by
  unfold Interact3
  rw [interact_comm (i := i) (j := j), interact_comm (i := j) (j := k), interact_comm (i := k) (j := i)]
  tauto

private theorem nu_last (hν : SymmetricNu a) (i j k : Nat) : a.nuOf i j k = a.nuOf i k j := by
  rw [hν.swap i j k, hν.rotate j i k]

private theorem force_sym (hν : SymmetricNu a) (i j k : Mol ℝ) : atForceOn a i j k = atForceOn a i k j := by
  unfold atForceOn
  by_cases hI : Interact3 a.cutoffSquared i j k
  · rw [if_pos hI, if_pos (interact3_last.1 hI), nu_last hν, atF_swap]
  · rw [if_neg hI, if_neg (fun h' => hI (interact3_last.2 h'))]

private theorem energy_swap (hν : SymmetricNu a) (i j k : Mol ℝ) : atTriple a i j k = atTriple a j i k := by
  unfold atTriple
  by_cases hI : Interact3 a.cutoffSquared i j k
  · rw [if_pos hI, if_pos (Interact3.comm.1 hI), hν.swap, atU_swap]
  · rw [if_neg hI, if_neg (fun h' => hI (Interact3.comm.2 h'))]

private theorem energy_rot (hν : SymmetricNu a) (i j k : Mol ℝ) : atTriple a i j k = atTriple a k i j := by
  unfold atTriple
  by_cases hI : Interact3 a.cutoffSquared i j k
  · rw [if_pos hI, if_pos (Interact3.rot.1 hI), hν.rotate k.type, atU_rotate _ k.pos]
  · rw [if_neg hI, if_neg (fun h' => hI (Interact3.rot.2 h'))]

private theorem energy_sym (hν : SymmetricNu a) (i j k : Mol ℝ) : atTriple a i j k = atTriple a i k j := by
  rw [energy_rot hν i j k, energy_swap hν k i j]

open Classical in
private theorem sum_ite {X M : Type} [AddCommMonoid M] (p : X → Prop) (g : X → M) (l : List X) :
    (l.map fun x => if p x then g x else 0).sum = ((l.filter fun x => p x).map g).sum := by
  induction l with
  | nil => rfl
  | cons x l ih =>
    by_cases hp : p x
    · rw [List.map_cons, List.sum_cons, ih, if_pos hp, List.filter_cons_of_pos (by simpa using hp), List.map_cons, List.sum_cons]
    · rw [List.map_cons, List.sum_cons, ih, if_neg hp, List.filter_cons_of_neg (by simpa using hp), zero_add]

private theorem forces_sum (H : ComputesAfter c h s) (hf : C01Functor3 c.il Slot.pos Slot.own f) (J : ComputesAT c s f a threads jobs)
    (typeOf : Nat → Nat) (force : Slot → V3 (Num ℝ)) (x : Slot) (hx : x ∈ s.slots) (hxo : x.own = .owned) :
    (atCompute sqrtR a threads (slotMolReal typeOf) force jobs).1 x = force x + (((unorderedPairs (s.slots.filter fun y => y ≠ x)).map fun t =>
      atForceOn a (slotMolReal typeOf x) (slotMolReal typeOf t.1) (slotMolReal typeOf t.2)).sum).fin := by
  rw [compute_eq H hf J]
  simp only
  rw [Pi.add_apply, at_events_force]
  congr 2
  refine (H.ready.complete3 hf).accumulated (slots_input s H.ready.bl).nodup
    (fun x y z => atForceOn a (slotMolReal typeOf x) (slotMolReal typeOf y) (slotMolReal typeOf z)) (fun x y z => force_sym J.nu _ _ _) ?_ x hx hxo
  intro x hx y hy z hz hxy hxz hyz hF
  refine strict J typeOf hx hy hz hxy hxz hyz ?_
  by_contra hI
  exact hF (if_neg hI)

/-- C79, forces: every owned particle gets minus the gradient of its Axilrod-Teller energy with all pairs of other particles. -/
theorem C79_forces (H : ComputesAfter c h s) (hf : C01Functor3 c.il Slot.pos Slot.own f) (J : ComputesAT c s f a threads jobs)
    (typeOf : Nat → Nat) (force : Slot → V3 (Num ℝ)) (x : Slot) (hx : x ∈ s.slots) (hxo : x.own = .owned) :
    ∃ F : V3 ℝ, (atCompute sqrtR a threads (slotMolReal typeOf) force jobs).1 x = force x + F.fin ∧
      MinusGradient (atEnergyAt a (slotMolReal typeOf) s.slots x) F x.pos.toReal := by
  refine ⟨_, forces_sum H hf J typeOf force x hx hxo, ?_⟩
  unfold atForceOn
  rw [sum_ite]
  refine MinusGradient.sum (fun (t : Slot × Slot) q => atU (a.nuOf (slotMolReal typeOf x).type (slotMolReal typeOf t.1).type (slotMolReal typeOf t.2).type) q
    (slotMolReal typeOf t.1).pos (slotMolReal typeOf t.2).pos) _ _ _ ?_
  intro t ht
  obtain ⟨ht, hI⟩ := List.mem_filter.1 ht
  have hI : Interact3 a.cutoffSquared (slotMolReal typeOf x) (slotMolReal typeOf t.1) (slotMolReal typeOf t.2) := by simpa using hI
  have hnd := (slots_input s H.ready.bl).nodup
  obtain ⟨m1, m2⟩ := mem_unorderedPairs ht
  have hne := ne_of_mem_unorderedPairs (hnd.filter _) ht
  obtain ⟨m1, n1⟩ := List.mem_filter.1 m1
  obtain ⟨m2, n2⟩ := List.mem_filter.1 m2
  have n1 : x ≠ t.1 := fun e => by simp [e] at n1
  have n2 : x ≠ t.2 := fun e => by simp [e] at n2
  obtain ⟨h1, h2, h3⟩ := apart J typeOf hx m1 m2 n1 n2 hne hI.1.1 hI.1.2.1 hI.2.1.2.1
  exact atU_gradient _ h1 h2 h3

private theorem sum_mul_left {X : Type} (r : ℝ) (g : X → ℝ) (l : List X) : (l.map fun e => r * g e).sum = r * (l.map g).sum := by
  induction l with
  | nil => simp
  | cons x l ih => rw [List.map_cons, List.sum_cons, ih, List.map_cons, List.sum_cons, mul_add]

/-- C79, potential energy: the sum over all sets of three particles, each with a third of its energy for every owned particle in it (the other
thirds count where the halo particles are owned). -/
theorem C79_potential_energy (H : ComputesAfter c h s) (hf : C01Functor3 c.il Slot.pos Slot.own f) (J : ComputesAT c s f a threads jobs)
    (typeOf : Nat → Nat) (force : Slot → V3 (Num ℝ)) :
    (atCompute sqrtR a threads (slotMolReal typeOf) force jobs).2.1 = .fin (((unorderedTriples s.slots).map fun t =>
      ((if t.1.own = .owned then 1 else 0) + (if t.2.1.own = .owned then 1 else 0) + (if t.2.2.own = .owned then 1 else 0)) / 3 *
        atTriple a (slotMolReal typeOf t.1) (slotMolReal typeOf t.2.1) (slotMolReal typeOf t.2.2)).sum) := by
  have hnd := (slots_input s H.ready.bl).nodup
  rw [compute_eq H hf J, at_events_globals]
  simp only
  have e1 := sum_owned3 (H.ready.complete3 hf) hnd
    (fun x y z => atTriple a (slotMolReal typeOf x) (slotMolReal typeOf y) (slotMolReal typeOf z))
  have e2 : ((s.slots.filter fun x => x.own = .owned).map fun x =>
      accumulated3 (fun x y z => atTriple a (slotMolReal typeOf x) (slotMolReal typeOf y) (slotMolReal typeOf z)) (s.interactions3 c f) x) =
      (s.slots.filter fun x => x.own = .owned).map fun x => ((unorderedPairs (s.slots.filter fun y => y ≠ x)).map fun t =>
        atTriple a (slotMolReal typeOf x) (slotMolReal typeOf t.1) (slotMolReal typeOf t.2)).sum := by
    refine List.map_congr_left fun x hx => ?_
    obtain ⟨hx, hxo⟩ := List.mem_filter.1 hx
    refine (H.ready.complete3 hf).accumulated hnd
      (fun x y z => atTriple a (slotMolReal typeOf x) (slotMolReal typeOf y) (slotMolReal typeOf z)) (fun x y z => energy_sym J.nu _ _ _) ?_ x hx (by simpa using hxo)
    intro x hx y hy z hz hxy hxz hyz hF
    refine strict J typeOf hx hy hz hxy hxz hyz ?_
    by_contra hI
    exact hF (if_neg hI)
  have e3 := triple_sum (fun x y z => if x.own = .owned then atTriple a (slotMolReal typeOf x) (slotMolReal typeOf y) (slotMolReal typeOf z) else 0)
    s.slots hnd
  have e4 : (s.slots.map fun x => ((unorderedPairs (s.slots.filter fun y => y ≠ x)).map fun t =>
      if x.own = .owned then atTriple a (slotMolReal typeOf x) (slotMolReal typeOf t.1) (slotMolReal typeOf t.2) else 0).sum).sum =
      ((s.slots.filter fun x => x.own = .owned).map fun x => ((unorderedPairs (s.slots.filter fun y => y ≠ x)).map fun t =>
        atTriple a (slotMolReal typeOf x) (slotMolReal typeOf t.1) (slotMolReal typeOf t.2)).sum).sum := by
    have key : ∀ (g : Slot → ℝ) (l : List Slot), (l.map fun x => if x.own = .owned then g x else 0).sum =
        ((l.filter fun x => x.own = .owned).map g).sum := by
      intro g l
      induction l with
      | nil => rfl
      | cons x l ih =>
        by_cases hp : x.own = .owned
        · rw [List.map_cons, List.sum_cons, ih, if_pos hp, List.filter_cons_of_pos (by simpa using hp), List.map_cons, List.sum_cons]
        · rw [List.map_cons, List.sum_cons, ih, if_neg hp, List.filter_cons_of_neg (by simpa using hp), zero_add]
    rw [← key]
    congr 1
    refine List.map_congr_left fun x _ => ?_
    by_cases hp : x.own = .owned
    · simp only [if_pos hp]
    · simp only [if_neg hp, List.map_const', List.sum_replicate, smul_zero]
  have e5 : ((contributions3 (s.interactions3 c f)).filter fun t => (slotMolReal typeOf t.1).own = .owned).map
      (fun t => 3 * atEnergyOf a (slotMolReal typeOf t.1) (slotMolReal typeOf t.2.1) (slotMolReal typeOf t.2.2)) =
      ((contributions3 (s.interactions3 c f)).filter fun t => t.1.own = .owned).map
      (fun t => 3 * atTriple a (slotMolReal typeOf t.1) (slotMolReal typeOf t.2.1) (slotMolReal typeOf t.2.2)) := rfl
  rw [e5, sum_mul_left 3 (fun t : Slot × Slot × Slot => atTriple a (slotMolReal typeOf t.1) (slotMolReal typeOf t.2.1) (slotMolReal typeOf t.2.2)),
    e1, e2, ← e4, e3, Num.fin_div (by norm_num), Num.fin_div (by norm_num)]
  congr 1
  have e6 : ((unorderedTriples s.slots).map fun t =>
      ((if t.1.own = .owned then 1 else 0) + (if t.2.1.own = .owned then 1 else 0) + (if t.2.2.own = .owned then 1 else 0)) / 3 *
        atTriple a (slotMolReal typeOf t.1) (slotMolReal typeOf t.2.1) (slotMolReal typeOf t.2.2)) =
      (unorderedTriples s.slots).map fun t => (1 / 3 : ℝ) *
        ((if t.1.own = .owned then atTriple a (slotMolReal typeOf t.1) (slotMolReal typeOf t.2.1) (slotMolReal typeOf t.2.2) else 0) +
        ((if t.2.1.own = .owned then atTriple a (slotMolReal typeOf t.2.1) (slotMolReal typeOf t.1) (slotMolReal typeOf t.2.2) else 0) +
        (if t.2.2.own = .owned then atTriple a (slotMolReal typeOf t.2.2) (slotMolReal typeOf t.1) (slotMolReal typeOf t.2.1) else 0))) := by
    refine List.map_congr_left fun t _ => ?_
    rw [← energy_swap J.nu (slotMolReal typeOf t.1), ← energy_rot J.nu (slotMolReal typeOf t.1)]
    split <;> split <;> split <;> ring
  rw [e6, sum_mul_left]
  ring

/-- C79, momentum: without halo particles the forces of all particles sum up to zero. -/
theorem C79_total_force_zero (H : ComputesAfter c h s) (hf : C01Functor3 c.il Slot.pos Slot.own f) (J : ComputesAT c s f a threads jobs)
    (typeOf : Nat → Nat) (hno : ∀ x ∈ s.slots, x.own ≠ .halo) :
    ((s.slots.filter fun x => x.own = .owned).map (atCompute sqrtR a threads (slotMolReal typeOf) (fun _ => 0) jobs).1).sum = 0 := by
  have hnd : s.slots.Nodup := (slots_input s H.ready.bl).nodup
  let G : Slot → Slot → Slot → V3 ℝ := fun x y z => atForceOn a (slotMolReal typeOf x) (slotMolReal typeOf y) (slotMolReal typeOf z)
  have e : ((s.slots.filter fun x => x.own = .owned).map (atCompute sqrtR a threads (slotMolReal typeOf) (fun _ => 0) jobs).1) =
      (s.slots.filter fun x => x.own = .owned).map fun x => (((unorderedPairs (s.slots.filter fun y => y ≠ x)).map fun t => G x t.1 t.2).sum).fin := by
    refine List.map_congr_left fun x hx => ?_
    obtain ⟨hx, hxo⟩ := List.mem_filter.1 hx
    rw [forces_sum H hf J typeOf _ x hx (by simpa using hxo), zero_add]
  have sum_fin : ∀ (g : Slot → V3 ℝ) (l : List Slot), (l.map fun x => (g x).fin).sum = ((l.map g).sum).fin := by
    intro g l
    induction l with
    | nil => rfl
    | cons x l ih => rw [List.map_cons, List.sum_cons, ih, List.map_cons, List.sum_cons, V3.fin_add]
  have e2 : ∀ (g : Slot → V3 ℝ) (l : List Slot), (∀ x ∈ l, x.own ≠ .owned → g x = 0) →
      ((l.filter fun x => x.own = .owned).map g).sum = (l.map g).sum := by
    intro g l hl
    induction l with
    | nil => rfl
    | cons x l ih =>
      have ih := ih fun y hy => hl y (List.mem_cons_of_mem _ hy)
      by_cases hp : x.own = .owned
      · rw [List.filter_cons_of_pos (by simpa using hp), List.map_cons, List.sum_cons, ih, List.map_cons, List.sum_cons]
      · rw [List.filter_cons_of_neg (by simpa using hp), ih, List.map_cons, List.sum_cons, hl x List.mem_cons_self hp, zero_add]
  rw [e, sum_fin (fun x => ((unorderedPairs (s.slots.filter fun y => y ≠ x)).map fun t => G x t.1 t.2).sum), e2, triple_sum G _ hnd]
  · have z : ∀ t : Slot × Slot × Slot, G t.1 t.2.1 t.2.2 + (G t.2.1 t.1 t.2.2 + G t.2.2 t.1 t.2.1) = 0 := by
      rintro ⟨x, y, w⟩
      simp only [G, atForceOn]
      by_cases hI : Interact3 a.cutoffSquared (slotMolReal typeOf x) (slotMolReal typeOf y) (slotMolReal typeOf w)
      · rw [if_pos hI, if_pos (Interact3.comm.1 hI), if_pos (Interact3.rot.1 hI)]
        have ν1 : a.nuOf (slotMolReal typeOf y).type (slotMolReal typeOf x).type (slotMolReal typeOf w).type =
          a.nuOf (slotMolReal typeOf x).type (slotMolReal typeOf y).type (slotMolReal typeOf w).type := J.nu.swap _ _ _
        have ν2 : a.nuOf (slotMolReal typeOf w).type (slotMolReal typeOf x).type (slotMolReal typeOf y).type =
          a.nuOf (slotMolReal typeOf x).type (slotMolReal typeOf y).type (slotMolReal typeOf w).type := J.nu.rotate _ _ _
        rw [ν1, ν2, ← atF_swap _ (slotMolReal typeOf y).pos, ← add_assoc]
        exact atF_sum _ _ _ _
      · rw [if_neg hI, if_neg (fun h' => hI (Interact3.comm.2 h')), if_neg (fun h' => hI (Interact3.rot.2 h')), add_zero, add_zero]
    simp only [z, List.map_const', List.sum_replicate, smul_zero]
    rfl
  · intro x hx hp
    have hd : x.own = .dummy := by
      have h1 := hno x hx
      cases hb : x.own with
      | dummy => rfl
      | owned => exact absurd hb hp
      | halo => exact absurd hb h1
    have z : ∀ y w, G x y w = 0 := fun y w => if_neg fun hI => hI.1.1 hd
    simp only [z, List.map_const', List.sum_replicate, smul_zero]
end

/-! Non-vacuity: two particles go into the container, a third one into an insertion buffer, and interactions are computed. -/

private def exATHistory : List LHAction :=
  [.add 0 ⟨1, ⟨1/4, 1/2, 1/2⟩, .owned⟩, .add 1 ⟨2, ⟨1/2, 1/2, 1/2⟩, .owned⟩, .compute, .add 1 ⟨3, ⟨1/2, 3/4, 1/2⟩, .owned⟩]

private theorem exATHistory_good : GoodHistory exParams exATHistory :=
  ⟨exParams_ok, ⟨(by decide : 0 < 2), fun _ _ => ⟨(by decide : 1 < 2), fun _ _ => ⟨trivial, fun _ _ => ⟨(by decide : 1 < 2), fun _ _ => trivial⟩⟩⟩⟩, by decide⟩

private theorem exAT_state : ∃ s, ComputesAfter exParams exATHistory s ∧
    (s.cells.flatten ++ (s.bufs.flatten ++ s.haloBufs.flatten)).Perm
      [⟨1, ⟨1/4, 1/2, 1/2⟩, .owned⟩, ⟨2, ⟨1/2, 1/2, 1/2⟩, .owned⟩, ⟨3, ⟨1/2, 3/4, 1/2⟩, .owned⟩] := by
  obtain ⟨s, outs, h1, -, -⟩ := C25_particles_conserved exATHistory_good
  have b1 : inBoxB (⟨1/4, 1/2, 1/2⟩ : V3 Rat) exParams.bMin exParams.bMax = true := by decide +kernel
  have b2 : inBoxB (⟨1/2, 1/2, 1/2⟩ : V3 Rat) exParams.bMin exParams.bMax = true := by decide +kernel
  have b3 : inBoxB (⟨1/2, 3/4, 1/2⟩ : V3 Rat) exParams.bMin exParams.bMax = true := by decide +kernel
  have hs := h1
  simp only [exATHistory, lhRun, lhStep, LHState.addParticle, b1, b2, b3, Option.map_some, Option.some.injEq, Prod.mk.injEq,
      Bool.true_eq_false, if_false] at hs
  refine ⟨s, ⟨exATHistory_good, ⟨trivial, fun _ _ => ⟨trivial, fun _ _ => ⟨trivial, fun _ _ => ⟨trivial, fun _ _ => trivial⟩⟩⟩⟩, by decide, ⟨outs, h1⟩, ?_⟩, ?_⟩
  · have key : ∀ (as : List LHAction) (mv : Moves) (s : LHState), (∀ a ∈ as, match a with | .move _ => False | _ => True) → mv.sinceUpdate = false →
        (Moves.after exParams mv s as).sinceUpdate = false := by
      intro as
      induction as with
      | nil => intro mv s _ h; exact h
      | cons a as ih =>
        intro mv s ha h
        show (match lhStep exParams s a with | none => mv | some r => _).sinceUpdate = _
        cases lhStep exParams s a with
        | none => exact h
        | some r =>
          refine ih _ _ (fun x hx => ha x (List.mem_cons_of_mem _ hx)) ?_
          have := ha a List.mem_cons_self
          cases a <;> first | exact h | rfl | exact this.elim
    exact key _ _ _ (by simp [exATHistory]) rfl
  · rw [← hs.1]
    have hlen : (LHState.init exParams).cells.length = exParams.block.numCells := by simp [LHState.init]
    have hcells : (LHState.init exParams).cells.flatten = [] := by simp [LHState.init]
    have p1 := lcAdd_perm exParams_ok hlen ⟨1, ⟨1/4, 1/2, 1/2⟩, .owned⟩
    have p2 := lcAdd_perm exParams_ok (cells := lcAdd exParams.block (LHState.init exParams).cells ⟨1, ⟨1/4, 1/2, 1/2⟩, .owned⟩)
      (by rw [lcAdd_length]; exact hlen) ⟨2, ⟨1/2, 1/2, 1/2⟩, .owned⟩
    rw [hcells, List.nil_append] at p1
    exact (p2.trans (p1.append_right _)).append_right _

private theorem slots_map79 (s : LHState) : s.slots.map Slot.particle = s.cells.flatten ++ (s.bufs.flatten ++ s.haloBufs.flatten) := by
  have key : ∀ a ls, (slotsOf a ls).flatten.map Slot.particle = ls.flatten := by
    intro a ls
    unfold slotsOf
    rw [List.map_flatten]
    congr 1
    apply List.ext_getElem (by simp)
    intro i h1 h2
    simp only [List.getElem_map, List.getElem_mapIdx]
    apply List.ext_getElem (by simp)
    intro j h3 h4
    simp
  unfold LHState.slots
  simp only [List.map_append, key]

/-- All hypotheses are met, e.g. with everything on one of two threads. -/
example (f : CellFunctorCfg Slot) : ∃ s a jobs, ComputesAfter exParams exATHistory s ∧ ComputesAT exParams s f a 2 jobs ∧
    (s.slots.filter fun x => x.own = .owned).length = 3 := by
  obtain ⟨s, H, hp⟩ := exAT_state
  rw [← slots_map79] at hp
  refine ⟨s, ⟨false, ((exParams.cutoff * exParams.cutoff : Rat) : ℝ), 1, fun _ _ _ => 0⟩, (s.interactions3 exParams f).map fun k => (1, k), H, ?_, ?_⟩
  · refine ⟨⟨fun _ _ _ => rfl, fun _ _ _ => rfl⟩, rfl, ?_, ?_, ?_⟩
    · have hpw : (s.slots.map Slot.particle).Pairwise fun a b => a.pos ≠ b.pos ∧ distSq a.pos b.pos ≠ exParams.cutoff * exParams.cutoff := by
        refine (hp.pairwise_iff ?_).2 ?_
        · intro a b hab
          refine ⟨fun h' => hab.1 h'.symm, ?_⟩
          rw [show distSq b.pos a.pos = distSq a.pos b.pos from by unfold distSq; ring]
          exact hab.2
        · simp only [List.pairwise_cons]
          decide +kernel
      rw [List.pairwise_map] at hpw
      intro a ha b hb hab _
      haveI : Std.Symm fun x y : Slot => x.particle.pos ≠ y.particle.pos ∧ distSq x.particle.pos y.particle.pos ≠ exParams.cutoff * exParams.cutoff := by
        refine ⟨fun x y hxy => ⟨fun h' => hxy.1 h'.symm, ?_⟩⟩
        rw [show distSq y.particle.pos x.particle.pos = distSq x.particle.pos y.particle.pos from by unfold distSq; ring]
        exact hxy.2
      exact hpw.forall ha hb hab
    · rw [List.map_map]
      have : (Prod.snd ∘ fun k : TripleCall Slot => (1, k)) = id := rfl
      rw [this, List.map_id]
    · intro j hj
      obtain ⟨k, -, rfl⟩ := List.mem_map.1 hj
      exact (by decide : 1 < 2)
  · have : (s.slots.filter fun a => a.own = .owned).length = ((s.slots.map Slot.particle).filter fun p => p.own = .owned).length := by
      rw [List.filter_map, List.length_map]; rfl
    rw [this, (hp.filter _).length_eq]
    decide +kernel

end Verif
