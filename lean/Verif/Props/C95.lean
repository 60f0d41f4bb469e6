import Verif.Lemmas.LJMultisiteSoA
import Verif.Lemmas.LJMultisiteSums
import Verif.Lemmas.LJComplete
import Verif.Props.C75
import Verif.Props.C93
import Mathlib.Analysis.SpecialFunctions.Trigonometric.Deriv
/-!
# C95 — rigid molecules: forces, torques and energy of the multi-site functor

`LJMultisiteFunctor` computes the interactions of rigid molecules with several Lennard-Jones sites. The force on a molecule is the sum of the
textbook forces on its sites, the torque the sum of (site − centre) × force, for all other molecules with their centres within the cutoff; the energy
and the virial are those of the pairs of sites. All kernels (one pair; a cell, two cells, a neighbour list in SoA layout, with their arrays of
sites, masks and reductions) do the same. Momentum and angular momentum are conserved with Newton 3, a rotation or translation of space
rotates forces and torques, and force and torque are minus the derivatives of the energy.
-/
namespace Verif
open Spec

section
variable {K : Type} [Field K] [LinearOrder K] {P : Type} [DecidableEq P]
variable {c : MSCfg K} {par : LJParams K} {sites : MolSites K}

theorem msRun_textbook [IsStrictOrderedRing K] (h : MSSetUp c par sites) (hs : par.Symmetric) (mol : P → MSMol K) (s : MSState P K) (calls : List (PairCall P))
    (hd : ∀ call ∈ calls, SitesApart sites c.cutoffSquared (mol call.p) (mol call.q)) :
    msRun c mol s calls = s + ((contributions calls).map (msEvent par sites c.cutoffSquared mol)).sum := by
  rw [msRun_eq]
  congr 1
  induction calls with
  | nil => rfl
  | cons call calls ih =>
    rw [contributions_cons, List.map_append, List.sum_append, ← ih (fun x hx => hd x (List.mem_cons_of_mem _ hx)), List.map_cons, List.sum_cons]
    congr 1
    exact pairEvent_textbook h hs shareAoS_ok call.newton3 mol call.p call.q (hd call List.mem_cons_self)

/-- C95, one molecule at a time: after any sequence of calls, force and torque of molecule `r` have grown by the textbook forces and torques of all
molecules it was called with (as first, or with Newton 3 as second). -/
theorem C95_forces_torques [IsStrictOrderedRing K] (h : MSSetUp c par sites) (hs : par.Symmetric) (mol : P → MSMol K) (s : MSState P K) (calls : List (PairCall P))
    (hd : ∀ call ∈ calls, SitesApart sites c.cutoffSquared (mol call.p) (mol call.q)) (r : P) :
    (msRun c mol s calls).force r =
      s.force r + (((contributions calls).filter fun e => e.1 = r).map fun e => msForceOn par sites c.cutoffSquared (mol r) (mol e.2)).sum.fin ∧
    (msRun c mol s calls).torque r =
      s.torque r + (((contributions calls).filter fun e => e.1 = r).map fun e => msTorqueOn par sites c.cutoffSquared (mol r) (mol e.2)).sum.fin := by
  rw [msRun_textbook h hs mol s calls hd, MSState.add_force, MSState.add_torque, Pi.add_apply, Pi.add_apply, (msEvents_at _ _ _ _).1, (msEvents_at _ _ _ _).2]
  exact ⟨rfl, rfl⟩

/-- C95, globals: six times the energy, and the virial, are added once for each owned molecule that receives a force. -/
theorem C95_globals [IsStrictOrderedRing K] (h : MSSetUp c par sites) (hs : par.Symmetric) (mol : P → MSMol K) (s : MSState P K) (calls : List (PairCall P))
    (hd : ∀ call ∈ calls, SitesApart sites c.cutoffSquared (mol call.p) (mol call.q)) :
    (msRun c mol s calls).globals.potentialEnergySum = s.globals.potentialEnergySum +
      .fin (6 * (((contributions calls).filter fun e => (mol e.1).own = .owned).map fun e => msEnergyOf par sites c.cutoffSquared (mol e.1) (mol e.2)).sum) ∧
    (msRun c mol s calls).globals.virialSum = s.globals.virialSum +
      (((contributions calls).filter fun e => (mol e.1).own = .owned).map fun e => msVirialOf par sites c.cutoffSquared (mol e.1) (mol e.2)).sum.fin := by
  rw [msRun_textbook h hs mol s calls hd, MSState.add_globals, msEvents_globals]
  exact ⟨rfl, rfl⟩

omit [DecidableEq P] in
theorem sum_flatMap_calls {M X Y : Type} [AddCommMonoid M] (f : X → List Y) (g : Y → M) (l : List X) :
    ((l.flatMap f).map g).sum = (l.map fun x => ((f x).map g).sum).sum := by
  induction l with
  | nil => rfl
  | cons x l ih => rw [List.flatMap_cons, List.map_append, List.sum_append, ih, List.map_cons, List.sum_cons]

/-- Forces and torques do not depend on how the globals are counted. -/
theorem pairEvent_share {share share' : Bool → Bool → SiteForce K → LJGlobals K} (newton3 : Bool) (p q : P) (a b : MSMol K) :
    (pairEvent share c newton3 p q a b).force = (pairEvent share' c newton3 p q a b).force ∧
    (pairEvent share c newton3 p q a b).torque = (pairEvent share' c newton3 p q a b).torque := by
  unfold pairEvent
  by_cases hI : MSNear c a b
  · rw [if_pos hI, if_pos hI]
    have key : ∀ (l l' : List Nat), ((l.map fun i => (l'.map fun j => siteEvent share c newton3 p q a b i j).sum).sum : MSState P K).force =
          (l.map fun i => (l'.map fun j => siteEvent share' c newton3 p q a b i j).sum).sum.force ∧
        ((l.map fun i => (l'.map fun j => siteEvent share c newton3 p q a b i j).sum).sum : MSState P K).torque =
          (l.map fun i => (l'.map fun j => siteEvent share' c newton3 p q a b i j).sum).sum.torque := by
      intro l l'
      have inner : ∀ i, ((l'.map fun j => siteEvent share c newton3 p q a b i j).sum : MSState P K).force = (l'.map fun j => siteEvent share' c newton3 p q a b i j).sum.force ∧
          ((l'.map fun j => siteEvent share c newton3 p q a b i j).sum : MSState P K).torque = (l'.map fun j => siteEvent share' c newton3 p q a b i j).sum.torque := by
        intro i
        induction l' with
        | nil => exact ⟨rfl, rfl⟩
        | cons j l' ih =>
          simp only [List.map_cons, List.sum_cons, MSState.add_force, MSState.add_torque, ih.1, ih.2]
          exact ⟨rfl, rfl⟩
      induction l with
      | nil => exact ⟨rfl, rfl⟩
      | cons i l ih =>
        simp only [List.map_cons, List.sum_cons, MSState.add_force, MSState.add_torque, ih.1, ih.2, (inner i).1, (inner i).2]
        exact ⟨trivial, trivial⟩
    exact key _ _
  · rw [if_neg hI, if_neg hI]
    exact ⟨rfl, rfl⟩

theorem sum_events_share (mol : P → MSMol K) (calls : List (PairCall P)) :
    ((calls.map fun x => pairEvent shareSoA c x.newton3 x.p x.q (mol x.p) (mol x.q)).sum : MSState P K).force =
      (calls.map fun x => pairEvent shareAoS c x.newton3 x.p x.q (mol x.p) (mol x.q)).sum.force ∧
    ((calls.map fun x => pairEvent shareSoA c x.newton3 x.p x.q (mol x.p) (mol x.q)).sum : MSState P K).torque =
      (calls.map fun x => pairEvent shareAoS c x.newton3 x.p x.q (mol x.p) (mol x.q)).sum.torque := by
  induction calls with
  | nil => exact ⟨rfl, rfl⟩
  | cons x calls ih =>
    have := pairEvent_share (c := c) (share := shareSoA) (share' := shareAoS) x.newton3 x.p x.q (mol x.p) (mol x.q)
    simp only [List.map_cons, List.sum_cons, MSState.add_force, MSState.add_torque, ih.1, ih.2, this.1, this.2]
    exact ⟨trivial, trivial⟩

/-- A kernel does the same as a sequence of calls of the AoS kernel: to forces and torques always, to the globals if no sites coincide. -/
structure SameAs (sites : MolSites K) (c : MSCfg K) (mol : P → MSMol K) (s : MSState P K) (calls : List (PairCall P)) (result : MSState P K) : Prop where
  force : result.force = (msRun c mol s calls).force
  torque : result.torque = (msRun c mol s calls).torque
  globals : (∀ call ∈ calls, SitesApart sites c.cutoffSquared (mol call.p) (mol call.q)) → result.globals = (msRun c mol s calls).globals

theorem sameAs_of_events [IsStrictOrderedRing K] (h : MSSetUp c par sites) (hs : par.Symmetric) (mol : P → MSMol K) (s : MSState P K) (calls : List (PairCall P)) (result : MSState P K)
    (hr : result = s + (calls.map fun x => pairEvent shareSoA c x.newton3 x.p x.q (mol x.p) (mol x.q)).sum) : SameAs sites c mol s calls result := by
  have e := sum_events_share (c := c) mol calls
  refine ⟨?_, ?_, fun hd => ?_⟩
  · rw [hr, msRun_eq, MSState.add_force, MSState.add_force, e.1]
  · rw [hr, msRun_eq, MSState.add_torque, MSState.add_torque, e.2]
  · rw [hr, msRun_eq]
    congr 2
    refine congrArg List.sum (List.map_congr_left fun x hx => ?_)
    rw [pairEvent_textbook h hs shareSoA_ok x.newton3 mol x.p x.q (hd x hx), pairEvent_textbook h hs shareAoS_ok x.newton3 mol x.p x.q (hd x hx)]

/-- C95, a cell in SoA layout: every pair of its molecules once, with Newton 3. -/
theorem C95_soa_cell [IsStrictOrderedRing K] (h : MSSetUp c par sites) (hs : par.Symmetric) (mol : Nat → MSMol K) (n : Nat) (s : MSState Nat K) :
    SameAs sites c mol s ((List.range n).flatMap fun i => (List.range' (i + 1) (n - (i + 1))).map fun j => ⟨i, j, true⟩) (msSoASingle c mol n s) := by
  refine sameAs_of_events h hs mol s _ _ ?_
  rw [msSoASingle_eq, sum_flatMap_calls]
  simp only [List.map_map]
  rfl

/-- C95, two cells in SoA layout: every molecule of the first (`inl`) with every molecule of the second (`inr`). -/
theorem C95_soa_pair [IsStrictOrderedRing K] (h : MSSetUp c par sites) (hs : par.Symmetric) (newton3 : Bool) (molA molB : Nat → MSMol K) (nA nB : Nat)
    (s : MSState (Nat ⊕ Nat) K) :
    SameAs sites c (Sum.elim molA molB) s ((List.range nA).flatMap fun i => (List.range nB).map fun j => ⟨.inl i, .inr j, newton3⟩)
      (msSoAPair c newton3 molA molB nA nB s) := by
  refine sameAs_of_events h hs _ s _ _ ?_
  rw [msSoAPair_eq, sum_flatMap_calls]
  simp only [List.map_map]
  rfl

/-- C95, a neighbour list in SoA layout: the molecule with each neighbour. -/
theorem C95_soa_list [IsStrictOrderedRing K] (h : MSSetUp c par sites) (hs : par.Symmetric) (newton3 : Bool) (mol : Nat → MSMol K) {n first : Nat} (hf : first < n)
    (list : List Nat) (s : MSState Nat K) :
    SameAs sites c mol s (list.map fun j => ⟨first, j, newton3⟩) (msSoAVerlet c newton3 mol n first list s) := by
  refine sameAs_of_events h hs mol s _ _ ?_
  rw [msSoAVerlet_eq newton3 (by omega), List.map_map]
  rfl

/-! ### Conservation -/

theorem sum_single {M : Type} [AddCommMonoid M] {all : List P} (hall : all.Nodup) {p : P} (hp : p ∈ all) (x : M) : (all.map fun r => (Pi.single p x : P → M) r).sum = x := by
  induction all with
  | nil => cases hp
  | cons a l ih =>
    obtain ⟨ha, hl⟩ := List.nodup_cons.1 hall
    rw [List.map_cons, List.sum_cons]
    by_cases h : p = a
    · subst h
      have : (l.map fun r => (Pi.single p x : P → M) r).sum = 0 := by
        refine List.sum_eq_zero fun y hy => ?_
        obtain ⟨r, hr, rfl⟩ := List.mem_map.1 hy
        exact Pi.single_eq_of_ne (M := fun _ => M) (fun h => ha (by rw [← h]; exact hr)) x
      rw [this, add_zero]
      exact Pi.single_eq_same (M := fun _ => M) p x
    · rw [ih hl ((List.mem_cons.1 hp).resolve_left h)]
      rw [show (Pi.single p x : P → M) a = 0 from Pi.single_eq_of_ne (M := fun _ => M) (fun h' => h h'.symm) x, zero_add]

omit [LinearOrder K] in
theorem v3_sum_neg {X : Type} (f : X → V3 K) (l : List X) : (l.map fun x => -f x).sum = -(l.map f).sum := by
  induction l with
  | nil => refine V3.ext' ?_ ?_ ?_ <;> simp
  | cons x l ih =>
    rw [List.map_cons, List.sum_cons, ih, List.map_cons, List.sum_cons]
    refine V3.ext' ?_ ?_ ?_ <;> simp only [V3.add_x, V3.add_y, V3.add_z, V3.neg_x, V3.neg_y, V3.neg_z] <;> ring

omit [LinearOrder K] in
theorem v3_neg_add_self (a : V3 K) : a + -a = 0 := by
  refine V3.ext' ?_ ?_ ?_ <;> simp

omit [LinearOrder K] in
theorem v3_cross_sum {X : Type} (r : V3 K) (f : X → V3 K) (l : List X) : r.cross (l.map f).sum = (l.map fun x => r.cross (f x)).sum := by
  induction l with
  | nil => refine V3.ext' ?_ ?_ ?_ <;> simp [V3.cross]
  | cons x l ih =>
    rw [List.map_cons, List.sum_cons, List.map_cons, List.sum_cons, ← ih]
    refine V3.ext' ?_ ?_ ?_ <;> simp only [V3.cross, V3.add_x, V3.add_y, V3.add_z] <;> ring

theorem msInteract_comm {rc2 : K} {a b : MSMol K} : MSInteract rc2 a b ↔ MSInteract rc2 b a := by
  have e : normSq (b.pos - a.pos) = normSq (a.pos - b.pos) := by
    unfold normSq; simp only [V3.sub_x, V3.sub_y, V3.sub_z]; ring
  unfold MSInteract
  rw [e]
  tauto

/-- Action and reaction: the forces of two molecules on each other are opposite, and so are their moments about the origin. -/
theorem action_reaction (hs : par.Symmetric) (rc2 : K) (a b : MSMol K) :
    msForceOn par sites rc2 b a = -msForceOn par sites rc2 a b ∧
    b.pos.cross (msForceOn par sites rc2 b a) + msTorqueOn par sites rc2 b a = -(a.pos.cross (msForceOn par sites rc2 a b) + msTorqueOn par sites rc2 a b) := by
  unfold msForceOn msTorqueOn overSites
  by_cases hI : MSInteract rc2 a b
  · have hI' := msInteract_comm.1 hI
    simp only [if_pos hI, if_pos hI']
    constructor
    · rw [sum_map_swap]
      simp only [siteForceOn_swap hs a b, v3_sum_neg]
    · have moment : ∀ (x y : MSMol K), x.pos.cross ((sites x.type).map fun s => ((sites y.type).map fun t => siteForceOn par x y s t).sum).sum +
          ((sites x.type).map fun s => ((sites y.type).map fun t => (sitePosition x s - x.pos).cross (siteForceOn par x y s t)).sum).sum =
          ((sites x.type).map fun s => ((sites y.type).map fun t => (sitePosition x s).cross (siteForceOn par x y s t)).sum).sum := by
        intro x y
        simp only [v3_cross_sum, ← List.sum_map_add]
        refine congrArg List.sum (List.map_congr_left fun s _ => congrArg List.sum (List.map_congr_left fun t _ => ?_))
        refine V3.ext' ?_ ?_ ?_ <;> simp only [V3.cross, V3.add_x, V3.add_y, V3.add_z, V3.sub_x, V3.sub_y, V3.sub_z] <;> ring
      rw [moment, moment, sum_map_swap, ← v3_sum_neg]
      refine congrArg List.sum (List.map_congr_left fun s _ => ?_)
      rw [← v3_sum_neg]
      refine congrArg List.sum (List.map_congr_left fun t _ => ?_)
      rw [siteForceOn_swap hs a b]
      unfold siteForceOn ljF
      refine V3.ext' ?_ ?_ ?_ <;>
        simp only [V3.cross, V3.scale_x, V3.scale_y, V3.scale_z, V3.neg_x, V3.neg_y, V3.neg_z, V3.sub_x, V3.sub_y, V3.sub_z] <;> ring
  · have hI' := fun h => hI (msInteract_comm.2 h)
    simp only [if_neg hI, if_neg hI']
    constructor <;> refine V3.ext' ?_ ?_ ?_ <;> simp [V3.cross]

/-- C95, conservation: if all calls use Newton 3, the forces of all molecules sum up to zero (momentum), and so do their moments about the origin plus
the torques (angular momentum). -/
theorem C95_conservation [IsStrictOrderedRing K] (h : MSSetUp c par sites) (hs : par.Symmetric) (mol : P → MSMol K) {all : List P} (hall : all.Nodup)
    (calls : List (PairCall P)) (hc : ∀ call ∈ calls, call.newton3 = true ∧ call.p ∈ all ∧ call.q ∈ all)
    (hd : ∀ call ∈ calls, SitesApart sites c.cutoffSquared (mol call.p) (mol call.q)) :
    (all.map fun r => (msRun c mol 0 calls).force r).sum = (0 : V3 K).fin ∧
    (all.map fun r => (mol r).pos.fin.cross ((msRun c mol 0 calls).force r) + (msRun c mol 0 calls).torque r).sum = (0 : V3 K).fin := by
  rw [msRun_textbook h hs mol 0 calls hd, zero_add]
  clear h hd
  have hz : (all.map fun r => (mol r).pos.fin.cross ((0 : MSState P K).force r) + (0 : MSState P K).torque r).sum = 0 := by
    refine List.sum_eq_zero fun y hy => ?_
    obtain ⟨r, -, rfl⟩ := List.mem_map.1 hy
    change (mol r).pos.fin.cross 0 + 0 = 0
    rw [cross_zero, add_zero]
  have hadd : ∀ x y : MSState P K, (all.map fun r => (mol r).pos.fin.cross ((x + y).force r) + (x + y).torque r).sum =
      (all.map fun r => (mol r).pos.fin.cross (x.force r) + x.torque r).sum + (all.map fun r => (mol r).pos.fin.cross (y.force r) + y.torque r).sum := by
    intro x y
    rw [← List.sum_map_add]
    refine congrArg List.sum (List.map_congr_left fun r _ => ?_)
    rw [MSState.add_force, MSState.add_torque, Pi.add_apply, Pi.add_apply, cross_add]
    exact add_add_add_comm _ _ _ _
  have hadd' : ∀ x y : MSState P K, (all.map fun r => (x + y).force r).sum = (all.map fun r => x.force r).sum + (all.map fun r => y.force r).sum := by
    intro x y
    rw [← List.sum_map_add]
    rfl
  have hone : ∀ e : P × P, e.1 ∈ all → (all.map fun r => (msEvent par sites c.cutoffSquared mol e).force r).sum = (msForceOn par sites c.cutoffSquared (mol e.1) (mol e.2)).fin ∧
      (all.map fun r => (mol r).pos.fin.cross ((msEvent par sites c.cutoffSquared mol e).force r) + (msEvent par sites c.cutoffSquared mol e).torque r).sum =
        ((mol e.1).pos.cross (msForceOn par sites c.cutoffSquared (mol e.1) (mol e.2)) + msTorqueOn par sites c.cutoffSquared (mol e.1) (mol e.2)).fin := by
    intro e he
    refine ⟨sum_single hall he _, ?_⟩
    have e2 : (all.map fun r => (mol r).pos.fin.cross ((msEvent par sites c.cutoffSquared mol e).force r) + (msEvent par sites c.cutoffSquared mol e).torque r) =
        all.map fun r => (Pi.single e.1 ((mol e.1).pos.cross (msForceOn par sites c.cutoffSquared (mol e.1) (mol e.2)) +
          msTorqueOn par sites c.cutoffSquared (mol e.1) (mol e.2)).fin : P → V3 (Num K)) r := by
      refine List.map_congr_left fun r _ => ?_
      unfold msEvent msEvOf
      dsimp only
      by_cases hr : r = e.1
      · subst hr
        rw [Pi.single_eq_same, Pi.single_eq_same, Pi.single_eq_same, cross_fin, v3_fin_add]
      · rw [Pi.single_eq_of_ne hr, Pi.single_eq_of_ne hr, Pi.single_eq_of_ne hr, cross_zero, add_zero]
    rw [e2, sum_single hall he]
  induction calls with
  | nil => exact ⟨List.sum_eq_zero fun y hy => by obtain ⟨r, -, rfl⟩ := List.mem_map.1 hy; rfl, hz⟩
  | cons call calls ih =>
    obtain ⟨h1, h2⟩ := ih (fun x hx => hc x (List.mem_cons_of_mem _ hx))
    obtain ⟨hn, hp, hq⟩ := hc call List.mem_cons_self
    obtain ⟨p, q, n3⟩ := call
    dsimp only at hn hp hq
    subst hn
    have e : ((contributions (⟨p, q, true⟩ :: calls)).map (msEvent par sites c.cutoffSquared mol)).sum =
        (msEvent par sites c.cutoffSquared mol (p, q) + msEvent par sites c.cutoffSquared mol (q, p)) +
          ((contributions calls).map (msEvent par sites c.cutoffSquared mol)).sum := by
      rw [contributions_cons, List.map_append, List.sum_append]
      congr 1
      simp [contributions]
    obtain ⟨ar1, ar2⟩ := action_reaction (sites := sites) hs c.cutoffSquared (mol p) (mol q)
    rw [e, hadd', hadd', h1, (hone (p, q) hp).1, (hone (q, p) hq).1, hadd, hadd, h2, (hone (p, q) hp).2, (hone (q, p) hq).2]
    dsimp only
    rw [ar2, ar1]
    simp only [← v3_fin_add, v3_neg_add_self, add_zero, and_self]

/-! ### Rigid motions -/

/-- C95, rigid motions of space: if all molecules are rotated and shifted together, forces and torques are rotated, the energy stays. -/
theorem C95_rigid_motion [IsStrictOrderedRing K] (h : MSSetUp c par sites) (hs : par.Symmetric) (mol : P → MSMol K) (calls : List (PairCall P)) {p : Q4 K} (hp : IsUnit4 p) (t : V3 K)
    (hd : ∀ call ∈ calls, SitesApart sites c.cutoffSquared (mol call.p) (mol call.q)) :
    ∃ F T : P → V3 K, (∀ r, (msRun c mol 0 calls).force r = (F r).fin ∧ (msRun c mol 0 calls).torque r = (T r).fin) ∧
      (∀ r, (msRun c (fun x => (mol x).moved p t) 0 calls).force r = (rotatePosition p (F r)).fin ∧
        (msRun c (fun x => (mol x).moved p t) 0 calls).torque r = (rotatePosition p (T r)).fin) ∧
      (msRun c (fun x => (mol x).moved p t) 0 calls).globals.potentialEnergySum = (msRun c mol 0 calls).globals.potentialEnergySum := by
  have hR := C93_rotates hp
  set R := rotatePosition p with hRd
  have Rsub : ∀ a b : V3 K, R (a - b) = R a - R b := by
    intro a b
    have : R (a - b + b) = R (a - b) + R b := hR.add _ _
    have e : a - b + b = a := by refine V3.ext' ?_ ?_ ?_ <;> simp
    rw [e] at this
    rw [this]
    refine V3.ext' ?_ ?_ ?_ <;> simp
  have Rzero : R 0 = 0 := by
    have := Rsub 0 0
    have e : ∀ a : V3 K, a - a = 0 := fun a => by refine V3.ext' ?_ ?_ ?_ <;> simp
    rw [e, e] at this
    exact this
  have Rsum : ∀ {X : Type} (f : X → V3 K) (l : List X), R (l.map f).sum = (l.map fun x => R (f x)).sum := by
    intro X f l
    induction l with
    | nil => exact Rzero
    | cons x l ih => rw [List.map_cons, List.sum_cons, hR.add, ih]; rfl
  have Rnorm : ∀ a : V3 K, normSq (R a) = normSq a := fun a => by rw [← inner_normSq, ← inner_normSq, hR.inner]
  have hsite : ∀ (m : MSMol K) s, sitePosition (m.moved p t) s = R (sitePosition m s) + t := by
    intro m s
    unfold sitePosition MSMol.moved
    dsimp only
    rw [C93_compose, hR.add]
    refine V3.ext' ?_ ?_ ?_ <;> simp only [V3.add_x, V3.add_y, V3.add_z] <;> ring
  have hdiff : ∀ x y : V3 K, (R x + t) - (R y + t) = R (x - y) := by
    intro x y
    rw [Rsub]
    refine V3.ext' ?_ ?_ ?_ <;> simp
  have hsitediff : ∀ (a b : MSMol K) s u, sitePosition (a.moved p t) s - sitePosition (b.moved p t) u = R (sitePosition a s - sitePosition b u) := by
    intro a b s u; rw [hsite, hsite, hdiff]
  have hF : ∀ (a b : MSMol K) s u, siteForceOn par (a.moved p t) (b.moved p t) s u = R (siteForceOn par a b s u) := by
    intro a b s u
    unfold siteForceOn ljF
    rw [hsitediff, Rnorm, hR.scale]
  have hI : ∀ a b : MSMol K, MSInteract c.cutoffSquared (a.moved p t) (b.moved p t) ↔ MSInteract c.cutoffSquared a b := by
    intro a b
    unfold MSInteract
    have : normSq ((a.moved p t).pos - (b.moved p t).pos) = normSq (a.pos - b.pos) := by
      change normSq ((R a.pos + t) - (R b.pos + t)) = _
      rw [hdiff, Rnorm]
    rw [this]
    rfl
  have hapart : ∀ call ∈ calls, SitesApart sites c.cutoffSquared ((mol call.p).moved p t) ((mol call.q).moved p t) := by
    intro call hcall hI' s hs' u hu he
    refine hd call hcall ((hI _ _).1 hI') s hs' u hu ?_
    apply normSq_eq_zero
    have e := hsitediff (mol call.p) (mol call.q) s u
    rw [he] at e
    have e0 : ∀ a : V3 K, a - a = 0 := fun a => by refine V3.ext' ?_ ?_ ?_ <;> simp
    rw [e0] at e
    rw [← Rnorm, ← e]
    simp [normSq]
  have hforce : ∀ a b : MSMol K, msForceOn par sites c.cutoffSquared (a.moved p t) (b.moved p t) = R (msForceOn par sites c.cutoffSquared a b) := by
    intro a b
    unfold msForceOn overSites
    by_cases hI' : MSInteract c.cutoffSquared a b
    · rw [if_pos hI', if_pos ((hI a b).2 hI')]
      simp only [Rsum, hF]
      rfl
    · rw [if_neg hI', if_neg (fun h => hI' ((hI a b).1 h)), Rzero]
  have htorque : ∀ a b : MSMol K, msTorqueOn par sites c.cutoffSquared (a.moved p t) (b.moved p t) = R (msTorqueOn par sites c.cutoffSquared a b) := by
    intro a b
    unfold msTorqueOn overSites
    by_cases hI' : MSInteract c.cutoffSquared a b
    · rw [if_pos hI', if_pos ((hI a b).2 hI')]
      simp only [Rsum, hR.cross, hF]
      have : ∀ s, sitePosition (a.moved p t) s - (a.moved p t).pos = R (sitePosition a s - a.pos) := by
        intro s
        rw [hsite]
        exact hdiff _ _
      simp only [this]
      rfl
    · rw [if_neg hI', if_neg (fun h => hI' ((hI a b).1 h)), Rzero]
  have henergy : ∀ a b : MSMol K, msEnergyOf par sites c.cutoffSquared (a.moved p t) (b.moved p t) = msEnergyOf par sites c.cutoffSquared a b := by
    intro a b
    unfold msEnergyOf overSites
    by_cases hI' : MSInteract c.cutoffSquared a b
    · rw [if_pos hI', if_pos ((hI a b).2 hI')]
      simp only [hsitediff, Rnorm]
      rfl
    · rw [if_neg hI', if_neg (fun h => hI' ((hI a b).1 h))]
  have z : ∀ x : V3 (Num K), (0 : V3 (Num K)) + x = x := fun x => zero_add x
  refine ⟨fun r => (((contributions calls).filter fun e => e.1 = r).map fun e => msForceOn par sites c.cutoffSquared (mol r) (mol e.2)).sum,
    fun r => (((contributions calls).filter fun e => e.1 = r).map fun e => msTorqueOn par sites c.cutoffSquared (mol r) (mol e.2)).sum, fun r => ?_, fun r => ?_, ?_⟩
  · obtain ⟨h1, h2⟩ := C95_forces_torques h hs mol 0 calls hd r
    exact ⟨h1.trans (z _), h2.trans (z _)⟩
  · obtain ⟨h1, h2⟩ := C95_forces_torques h hs (fun x => (mol x).moved p t) 0 calls hapart r
    refine ⟨(h1.trans (z _)).trans ?_, (h2.trans (z _)).trans ?_⟩
    · rw [Rsum]
      simp only [hforce]
    · rw [Rsum]
      simp only [htorque]
  · rw [(C95_globals h hs mol 0 calls hd).1, (C95_globals h hs (fun x => (mol x).moved p t) 0 calls hapart).1]
    simp only [henergy]
    rfl

end

/-! ### All molecules -/

section
variable {P : Type} [DecidableEq P] {c : MSCfg Rat} {par : LJParams Rat} {sites : MolSites Rat}

/-- C95, all molecules: let the calls made by the threads, taken together, be complete (every pair of molecules within the cutoff, in whatever way the container
and traversal serve it), and let no two molecules be at exactly the cutoff distance. Then, in whatever order the calls take effect, each owned molecule gets the force and
the torque of all other molecules, and `getPotentialEnergy()` is half the sum of the energies of all owned molecules with all others. (`endTraversal`,
LJMultisiteFunctor.h:722-747, is that of `LJFunctor`.) -/
theorem C95_all_molecules (h : MSSetUp c par sites) (hs : par.Symmetric) (mol : P → MSMol Rat) {cutoff : Rat} (hcut : c.cutoffSquared = cutoff * cutoff)
    {all : List P} (hall : all.Nodup) (threads : List (List (PairCall P)))
    (H : CompleteCalls (fun p => (mol p).pos) (fun p => (mol p).own) cutoff all threads.flatten)
    (hd : ∀ a ∈ all, ∀ b ∈ all, a ≠ b → SitesApart sites c.cutoffSquared (mol a) (mol b) ∧ distSq (mol a).pos (mol b).pos ≠ cutoff * cutoff) :
    (∀ calls, calls.Perm threads.flatten → ∀ a ∈ all, (mol a).own = .owned →
      (msRun c mol 0 calls).force a = ((all.filter fun b => b ≠ a).map fun b => msForceOn par sites (cutoff * cutoff) (mol a) (mol b)).sum.fin ∧
      (msRun c mol 0 calls).torque a = ((all.filter fun b => b ≠ a).map fun b => msTorqueOn par sites (cutoff * cutoff) (mol a) (mol b)).sum.fin) ∧
    ljPotentialEnergy (ljEndTraversal (threads.map fun calls => (msRun c mol 0 calls).globals)) = .fin (1 / 2 *
      ((all.filter fun a => (mol a).own = .owned).map fun a => ((all.filter fun b => b ≠ a).map fun b => msEnergyOf par sites (cutoff * cutoff) (mol a) (mol b)).sum).sum) := by
  have hmem : ∀ call ∈ threads.flatten, SitesApart sites c.cutoffSquared (mol call.p) (mol call.q) := by
    intro call hcall
    have h1 : timesReceived threads.flatten call.p call.q ≠ 0 := by
      unfold timesReceived contributions
      rw [Nat.ne_zero_iff_zero_lt, List.count_pos_iff]
      exact List.mem_flatMap.2 ⟨call, hcall, List.mem_cons_self⟩
    obtain ⟨ha, hb, hne⟩ := H.mem _ _ h1
    exact (hd _ ha _ hb hne).1
  have hzero : ∀ a ∈ all, ∀ b ∈ all, a ≠ b → ((mol b).own = .dummy ∨ cutoff * cutoff ≤ distSq (mol a).pos (mol b).pos) → ¬ MSInteract (cutoff * cutoff) (mol a) (mol b) := by
    intro a ha b hb hab hz hI
    rcases hz with hz | hz
    · exact hI.2.1 hz
    · exact (hd a ha b hb hab).2 (le_antisymm hI.2.2 hz)
  have perm : ∀ calls : List (PairCall P), calls.Perm threads.flatten → (contributions calls).Perm (contributions threads.flatten) := by
    intro calls hp
    unfold contributions
    exact hp.flatMap_right _
  have z : ∀ x : V3 (Num Rat), (0 : V3 (Num Rat)) + x = x := fun x => zero_add x
  constructor
  · intro calls hp a ha hao
    obtain ⟨h1, h2⟩ := C95_forces_torques h hs mol 0 calls (fun call hc => hmem call (hp.mem_iff.1 hc)) a
    refine ⟨(h1.trans (z _)).trans ?_, (h2.trans (z _)).trans ?_⟩
    · rw [(((perm calls hp).filter _).map _).sum_eq, hcut]
      exact congrArg V3.fin (H.sum_at hall (fun a b => msForceOn par sites (cutoff * cutoff) (mol a) (mol b))
        (fun a ha b hb hab hz => if_neg (hzero a ha b hb hab hz)) a ha hao)
    · rw [(((perm calls hp).filter _).map _).sum_eq, hcut]
      exact congrArg V3.fin (H.sum_at hall (fun a b => msTorqueOn par sites (cutoff * cutoff) (mol a) (mol b))
        (fun a ha b hb hab hz => if_neg (hzero a ha b hb hab hz)) a ha hao)
  · have hflat : (threads.map fun calls => (msRun c mol 0 calls).globals).sum = (msRun c mol 0 threads.flatten).globals := by
      clear H hd hmem perm
      induction threads with
      | nil => rfl
      | cons l ls ih =>
        rw [List.map_cons, List.sum_cons, ih, List.flatten_cons, msRun_eq, msRun_eq, msRun_eq, List.map_append, List.sum_append]
        simp only [MSState.add_globals]
        change 0 + _ + (0 + _) = 0 + _
        simp only [zero_add]
    rw [ljEndTraversal_eq, hflat, ← H.sum_owned hall (fun a b => msEnergyOf par sites (cutoff * cutoff) (mol a) (mol b))
      (fun a ha b hb hab hz => if_neg (hzero a ha b hb hab hz))]
    unfold ljPotentialEnergy
    dsimp only
    rw [(C95_globals h hs mol 0 threads.flatten hmem).1, hcut]
    change ((0 : Num Rat) + .fin (6 * _)) * _ / _ = _
    rw [zero_add, Num.fin_mul, Num.fin_div (by norm_num)]
    congr 1
    ring

end

/-! ### Derivatives of the energy -/

section
variable {par : LJParams ℝ} {sites : MolSites ℝ}

/-- A moving point. -/
structure Moves (γ : ℝ → V3 ℝ) (v : V3 ℝ) (t₀ : ℝ) : Prop where
  x : HasDerivAt (fun t => (γ t).x) v.x t₀
  y : HasDerivAt (fun t => (γ t).y) v.y t₀
  z : HasDerivAt (fun t => (γ t).z) v.z t₀

theorem ljU_along (ε σ shift : ℝ) {x : ℝ → V3 ℝ} {v : V3 ℝ} {t₀ : ℝ} (hx : Moves x v t₀) {y : V3 ℝ} (hd : x t₀ ≠ y) :
    HasDerivAt (fun t => ljU ε σ shift (normSq (x t - y))) (-(ljF ε σ (x t₀ - y)).inner v) t₀ := by
  have h0 : normSq (x t₀ - y) ≠ 0 := fun h' => hd (normSq_eq_zero h')
  have hn : HasDerivAt (fun t => normSq (x t - y)) (2 * ((x t₀).x - y.x) * v.x + 2 * ((x t₀).y - y.y) * v.y + 2 * ((x t₀).z - y.z) * v.z) t₀ := by
    unfold normSq
    simp only [V3.sub_x, V3.sub_y, V3.sub_z]
    refine HasDerivAt.add (HasDerivAt.add ?_ ?_) ?_
    · exact ((hx.x.sub_const y.x).pow 2).congr_deriv (by norm_num)
    · exact ((hx.y.sub_const y.y).pow 2).congr_deriv (by norm_num)
    · exact ((hx.z.sub_const y.z).pow 2).congr_deriv (by norm_num)
  refine (HasDerivAt.comp t₀ (h₂ := ljU ε σ shift) (h := fun t => normSq (x t - y)) (ljU_deriv ε σ shift h0) hn).congr_deriv ?_
  unfold ljF V3.inner
  simp only [V3.scale_x, V3.scale_y, V3.scale_z, V3.sub_x, V3.sub_y, V3.sub_z]
  ring

theorem sum_deriv' {X : Type} (f : X → ℝ → ℝ) (D : X → ℝ) (t₀ : ℝ) (l : List X) (h : ∀ x ∈ l, HasDerivAt (f x) (D x) t₀) :
    HasDerivAt (fun t => (l.map fun x => f x t).sum) ((l.map D).sum) t₀ := by
  induction l with
  | nil => exact hasDerivAt_const t₀ 0
  | cons x l ih =>
    simp only [List.map_cons, List.sum_cons]
    exact (h x List.mem_cons_self).add (ih fun y hy => h y (List.mem_cons_of_mem _ hy))

/-- The energy of two molecules while the first one moves. -/
theorem msEnergy_along (rc2 : ℝ) (A : ℝ → MSMol ℝ) (b : MSMol ℝ) (t₀ : ℝ) (v : Nat × V3 ℝ → V3 ℝ) (htype : ∀ t, (A t).type = (A t₀).type)
    (hv : ∀ s, Moves (fun t => sitePosition (A t) s) (v s) t₀)
    (hI : ∀ᶠ t in nhds t₀, (MSInteract rc2 (A t) b ↔ MSInteract rc2 (A t₀) b)) (hd : SitesApart sites rc2 (A t₀) b) :
    HasDerivAt (fun t => msEnergyOf par sites rc2 (A t) b) (-overSites sites rc2 (A t₀) b fun s u => (siteForceOn par (A t₀) b s u).inner (v s)) t₀ := by
  unfold msEnergyOf overSites
  by_cases hi : MSInteract rc2 (A t₀) b
  · rw [if_pos hi]
    have e : ∀ (l : List (Nat × V3 ℝ)) (f : Nat × V3 ℝ → ℝ), -(l.map f).sum = (l.map fun x => -f x).sum := by
      intro l f
      induction l with
      | nil => simp
      | cons x l ih => simp only [List.map_cons, List.sum_cons, ← ih]; ring
    rw [e]
    simp only [e]
    have key := sum_deriv' (fun s t => ((sites b.type).map fun u => ljU (par.epsilon s.1 u.1) (par.sigma s.1 u.1) (par.shift s.1 u.1) (normSq (sitePosition (A t) s - sitePosition b u))).sum)
      (fun s => ((sites b.type).map fun u => -(siteForceOn par (A t₀) b s u).inner (v s)).sum) t₀ (sites (A t₀).type) (fun s hs' =>
        sum_deriv' (fun u t => ljU (par.epsilon s.1 u.1) (par.sigma s.1 u.1) (par.shift s.1 u.1) (normSq (sitePosition (A t) s - sitePosition b u)))
          (fun u => -(siteForceOn par (A t₀) b s u).inner (v s)) t₀ (sites b.type) (fun u hu => ljU_along _ _ _ (hv s) (hd hi s hs' u hu)))
    refine key.congr_of_eventuallyEq ?_
    filter_upwards [hI] with t ht
    rw [if_pos (ht.2 hi), htype t]
  · rw [if_neg hi, neg_zero]
    refine (hasDerivAt_const t₀ (0 : ℝ)).congr_of_eventuallyEq ?_
    filter_upwards [hI] with t ht
    rw [if_neg (fun h => hi (ht.1 h))]

theorem inner_sum {X : Type} (f : X → V3 ℝ) (w : V3 ℝ) (l : List X) : (l.map f).sum.inner w = (l.map fun x => (f x).inner w).sum := by
  induction l with
  | nil => simp [V3.inner]
  | cons x l ih =>
    rw [List.map_cons, List.sum_cons, List.map_cons, List.sum_cons, ← ih]
    unfold V3.inner; simp only [V3.add_x, V3.add_y, V3.add_z]; ring

/-- C95, torque: turn a molecule about any axis `u` through its centre, at angle zero. The energy with all others changes at the rate minus (torque · `u`). -/
theorem C95_torque_is_minus_derivative (rc2 : ℝ) (a : MSMol ℝ) (others : List (MSMol ℝ)) (hd : ∀ b ∈ others, SitesApart sites rc2 a b) {u : V3 ℝ} (_hu : u.inner u = 1) :
    HasDerivAt (fun θ => (others.map fun b => msEnergyOf par sites rc2
        { a with q := qMul ⟨Real.cos (θ / 2), Real.sin (θ / 2) * u.x, Real.sin (θ / 2) * u.y, Real.sin (θ / 2) * u.z⟩ a.q } b).sum)
      (-(others.map fun b => msTorqueOn par sites rc2 a b).sum.inner u) 0 := by
  have e : ∀ (l : List (MSMol ℝ)) (f : MSMol ℝ → ℝ), -(l.map f).sum = (l.map fun x => -f x).sum := by
    intro l f
    induction l with
    | nil => simp
    | cons x l ih => simp only [List.map_cons, List.sum_cons, ← ih]; ring
  rw [inner_sum, e]
  refine sum_deriv' (fun b θ => msEnergyOf par sites rc2
        { a with q := qMul ⟨Real.cos (θ / 2), Real.sin (θ / 2) * u.x, Real.sin (θ / 2) * u.y, Real.sin (θ / 2) * u.z⟩ a.q } b) _ 0 others fun b hb => ?_
  have ha0 : ({ a with q := qMul ⟨Real.cos ((0 : ℝ) / 2), Real.sin (0 / 2) * u.x, Real.sin (0 / 2) * u.y, Real.sin (0 / 2) * u.z⟩ a.q } : MSMol ℝ) = a := by
    have : qMul ⟨Real.cos ((0 : ℝ) / 2), Real.sin (0 / 2) * u.x, Real.sin (0 / 2) * u.y, Real.sin (0 / 2) * u.z⟩ a.q = a.q := by
      rw [zero_div, Real.cos_zero, Real.sin_zero]
      apply q4_ext <;> simp [qMul]
    rw [this]
  have key := msEnergy_along (par := par) (sites := sites) rc2
    (fun θ => { a with q := qMul ⟨Real.cos (θ / 2), Real.sin (θ / 2) * u.x, Real.sin (θ / 2) * u.y, Real.sin (θ / 2) * u.z⟩ a.q }) b 0
    (fun s => u.cross (rotatePosition a.q s.2)) (fun _ => rfl) ?_ ?_ ?_
  · refine key.congr_deriv ?_
    rw [ha0]
    congr 1
    unfold msTorqueOn overSites
    by_cases hi : MSInteract rc2 a b
    · rw [if_pos hi, if_pos hi]
      simp only [inner_sum]
      refine congrArg List.sum (List.map_congr_left fun s _ => congrArg List.sum (List.map_congr_left fun t _ => ?_))
      rw [lever_eq]
      simp only [V3.inner, V3.cross]
      ring
    · rw [if_neg hi, if_neg hi]
      simp [V3.inner]
  · intro s
    have hc : HasDerivAt (fun θ : ℝ => Real.cos (θ / 2)) 0 0 := by
      have := (Real.hasDerivAt_cos ((0 : ℝ) / 2)).comp (0 : ℝ) ((hasDerivAt_id (0 : ℝ)).div_const 2)
      exact this.congr_deriv (by simp)
    have hsn : HasDerivAt (fun θ : ℝ => Real.sin (θ / 2)) (1 / 2) 0 := by
      have := (Real.hasDerivAt_sin ((0 : ℝ) / 2)).comp (0 : ℝ) ((hasDerivAt_id (0 : ℝ)).div_const 2)
      exact this.congr_deriv (by simp)
    have hcc := hc.mul hc
    have hcs := hc.mul hsn
    have hss := hsn.mul hsn
    set w := rotatePosition a.q s.2 with hw
    have pos : ∀ θ : ℝ, sitePosition { a with q := qMul ⟨Real.cos (θ / 2), Real.sin (θ / 2) * u.x, Real.sin (θ / 2) * u.y, Real.sin (θ / 2) * u.z⟩ a.q } s =
        a.pos + ⟨Real.cos (θ / 2) * Real.cos (θ / 2) * w.x + Real.cos (θ / 2) * Real.sin (θ / 2) * (2 * (u.y * w.z - u.z * w.y)) +
            Real.sin (θ / 2) * Real.sin (θ / 2) * ((u.x * u.x - u.y * u.y - u.z * u.z) * w.x + 2 * u.x * u.y * w.y + 2 * u.x * u.z * w.z),
          Real.cos (θ / 2) * Real.cos (θ / 2) * w.y + Real.cos (θ / 2) * Real.sin (θ / 2) * (2 * (u.z * w.x - u.x * w.z)) +
            Real.sin (θ / 2) * Real.sin (θ / 2) * ((u.y * u.y - u.x * u.x - u.z * u.z) * w.y + 2 * u.x * u.y * w.x + 2 * u.y * u.z * w.z),
          Real.cos (θ / 2) * Real.cos (θ / 2) * w.z + Real.cos (θ / 2) * Real.sin (θ / 2) * (2 * (u.x * w.y - u.y * w.x)) +
            Real.sin (θ / 2) * Real.sin (θ / 2) * ((u.z * u.z - u.x * u.x - u.y * u.y) * w.z + 2 * u.x * u.z * w.x + 2 * u.y * u.z * w.y)⟩ := by
      intro θ
      unfold sitePosition
      dsimp only
      rw [C93_compose, ← hw]
      congr 1
      apply v3_ext <;> simp only [rotatePosition, Q4.matrix] <;> ring
    refine ⟨?_, ?_, ?_⟩
    · simp only [pos, V3.add_x]
      refine ((((hcc.mul_const w.x).add (hcs.mul_const _)).add (hss.mul_const _)).const_add a.pos.x).congr_deriv ?_
      simp [V3.cross]
    · simp only [pos, V3.add_y]
      refine ((((hcc.mul_const w.y).add (hcs.mul_const _)).add (hss.mul_const _)).const_add a.pos.y).congr_deriv ?_
      simp [V3.cross]
    · simp only [pos, V3.add_z]
      refine ((((hcc.mul_const w.z).add (hcs.mul_const _)).add (hss.mul_const _)).const_add a.pos.z).congr_deriv ?_
      simp [V3.cross]
  · exact Filter.Eventually.of_forall fun t => Iff.rfl
  · rw [ha0]
    exact hd b hb

/-- C95, force: the force on a molecule is minus the gradient of its energy with all others, as long as no other molecule is exactly at the cutoff distance. -/
theorem C95_force_is_minus_gradient (rc2 : ℝ) (a : MSMol ℝ) (others : List (MSMol ℝ)) (hd : ∀ b ∈ others, SitesApart sites rc2 a b ∧ normSq (a.pos - b.pos) ≠ rc2) :
    MinusGradient (fun p => (others.map fun b => msEnergyOf par sites rc2 { a with pos := p } b).sum) (others.map fun b => msForceOn par sites rc2 a b).sum a.pos := by
  have e : ∀ (l : List (MSMol ℝ)) (f : MSMol ℝ → ℝ), -(l.map f).sum = (l.map fun x => -f x).sum := by
    intro l f
    induction l with
    | nil => simp
    | cons x l ih => simp only [List.map_cons, List.sum_cons, ← ih]; ring
  have along : ∀ (γ : ℝ → V3 ℝ) (d : V3 ℝ) (t₀ : ℝ), γ t₀ = a.pos → Moves γ d t₀ →
      HasDerivAt (fun t => (others.map fun b => msEnergyOf par sites rc2 { a with pos := γ t } b).sum) (-((others.map fun b => msForceOn par sites rc2 a b).sum.inner d)) t₀ := by
    intro γ d t₀ h0 hm
    rw [inner_sum, e]
    refine sum_deriv' (fun b t => msEnergyOf par sites rc2 { a with pos := γ t } b) _ t₀ others fun b hb => ?_
    have ha0 : ({ a with pos := γ t₀ } : MSMol ℝ) = a := by rw [h0]
    have hc : ContinuousAt (fun t => normSq (γ t - b.pos)) t₀ := by
      unfold normSq
      simp only [V3.sub_x, V3.sub_y, V3.sub_z]
      exact (((hm.x.continuousAt.sub continuousAt_const).pow 2).add ((hm.y.continuousAt.sub continuousAt_const).pow 2)).add ((hm.z.continuousAt.sub continuousAt_const).pow 2)
    have key := msEnergy_along (par := par) (sites := sites) rc2 (fun t => { a with pos := γ t }) b t₀ (fun _ => d) (fun _ => rfl) ?_ ?_ (by rw [ha0]; exact (hd b hb).1)
    · refine key.congr_deriv ?_
      rw [ha0]
      congr 1
      unfold msForceOn overSites
      by_cases hi : MSInteract rc2 a b
      · rw [if_pos hi, if_pos hi]
        simp only [inner_sum]
      · rw [if_neg hi, if_neg hi]
        simp [V3.inner]
    · intro s
      unfold sitePosition
      dsimp only
      exact ⟨hm.x.add_const (rotatePosition a.q s.2).x, hm.y.add_const (rotatePosition a.q s.2).y, hm.z.add_const (rotatePosition a.q s.2).z⟩
    · have hne : normSq (γ t₀ - b.pos) ≠ rc2 := by rw [h0]; exact (hd b hb).2
      rcases lt_or_gt_of_ne hne with hlt | hgt
      · filter_upwards [hc.eventually_lt continuousAt_const hlt] with t ht
        exact ⟨fun h => ⟨h.1, h.2.1, le_of_lt hlt⟩, fun h => ⟨h.1, h.2.1, le_of_lt ht⟩⟩
      · filter_upwards [continuousAt_const.eventually_lt hc hgt] with t ht
        exact ⟨fun h => absurd h.2.2 (not_le.2 ht), fun h => absurd h.2.2 (not_le.2 hgt)⟩
  refine ⟨?_, ?_, ?_⟩
  · refine (along (fun t => ⟨t, a.pos.y, a.pos.z⟩) ⟨1, 0, 0⟩ a.pos.x rfl ⟨hasDerivAt_id _, hasDerivAt_const _ _, hasDerivAt_const _ _⟩).congr_deriv ?_
    simp [V3.inner]
  · refine (along (fun t => ⟨a.pos.x, t, a.pos.z⟩) ⟨0, 1, 0⟩ a.pos.y rfl ⟨hasDerivAt_const _ _, hasDerivAt_id _, hasDerivAt_const _ _⟩).congr_deriv ?_
    simp [V3.inner]
  · refine (along (fun t => ⟨a.pos.x, a.pos.y, t⟩) ⟨0, 0, 1⟩ a.pos.z rfl ⟨hasDerivAt_const _ _, hasDerivAt_const _ _, hasDerivAt_id _⟩).congr_deriv ?_
    simp [V3.inner]

end

/-! Concrete: type 0 is a dumbbell, type 1 has one site; a dumbbell, a turned dumbbell, a halo molecule, a deleted one on the spot of the first, and one out of reach. -/

private def exMSSites : MolSites Rat := fun t => if t = 0 then [(0, ⟨1 / 2, 0, 0⟩), (1, ⟨-1 / 2, 0, 0⟩)] else [(1, ⟨0, 0, 0⟩)]
private def exMSC : MSCfg Rat := ⟨true, 9, fun t => (exMSSites t).map Prod.fst, fun t => (exMSSites t).map Prod.snd,
  fun i j => if i = j then 24 else 12, fun _ _ => 1, fun _ _ => 6⟩
private def exMSPar : LJParams Rat := ⟨fun i j => if i = j then 1 else 1 / 2, fun _ _ => 1, fun _ _ => 1⟩
private def exMSMol : Nat → MSMol Rat
  | 0 => ⟨⟨0, 0, 0⟩, ⟨1, 0, 0, 0⟩, 0, .owned⟩
  | 1 => ⟨⟨0, 2, 0⟩, ⟨3 / 5, 0, 0, 4 / 5⟩, 0, .owned⟩
  | 2 => ⟨⟨2, 0, 1 / 2⟩, ⟨1, 0, 0, 0⟩, 1, .halo⟩
  | 3 => ⟨⟨0, 0, 0⟩, ⟨1, 0, 0, 0⟩, 0, .dummy⟩
  | _ => ⟨⟨9, 9, 9⟩, ⟨1, 0, 0, 0⟩, 0, .owned⟩

private theorem exMSSetUp : MSSetUp exMSC exMSPar exMSSites := by
  refine ⟨fun _ => rfl, fun _ => rfl, fun i j => ?_, fun i j => ?_, fun i j => ?_⟩
  · by_cases h : i = j <;> simp [exMSC, exMSPar, h]; norm_num
  · simp [exMSC, exMSPar]
  · simp [exMSC, exMSPar]

private theorem exMSSym : exMSPar.Symmetric := ⟨fun i j => by simp [exMSPar, eq_comm], fun _ _ => rfl, fun _ _ => rfl⟩

private theorem exMSApart : ∀ a < 5, ∀ b < 5, a ≠ b → SitesApart exMSSites exMSC.cutoffSquared (exMSMol a) (exMSMol b) := by
  unfold SitesApart; decide +kernel

private def exMSCalls : List (PairCall Nat) := [⟨0, 1, true⟩, ⟨2, 0, true⟩, ⟨1, 3, true⟩, ⟨1, 2, true⟩, ⟨0, 4, true⟩]

private theorem exMSCallsApart : ∀ call ∈ exMSCalls, SitesApart exMSSites exMSC.cutoffSquared (exMSMol call.p) (exMSMol call.q) := by
  unfold SitesApart; decide +kernel

example := C95_forces_torques exMSSetUp exMSSym exMSMol 0 exMSCalls exMSCallsApart 0
example := C95_globals exMSSetUp exMSSym exMSMol 0 exMSCalls exMSCallsApart
example := C95_conservation exMSSetUp exMSSym exMSMol (all := List.range 5) (by decide) exMSCalls (by decide) exMSCallsApart
example := C95_rigid_motion exMSSetUp exMSSym exMSMol exMSCalls (p := ⟨3 / 5, 4 / 5, 0, 0⟩) (by norm_num [IsUnit4]) ⟨1, 2, 3⟩ exMSCallsApart

/-- Force and torque of the first dumbbell are not zero. -/
example : msForceOn exMSPar exMSSites 9 (exMSMol 0) (exMSMol 1) ≠ 0 ∧ msTorqueOn exMSPar exMSSites 9 (exMSMol 0) (exMSMol 1) ≠ 0 ∧
    msEnergyOf exMSPar exMSSites 9 (exMSMol 0) (exMSMol 1) ≠ 4 := by decide +kernel

example := (C95_soa_cell exMSSetUp exMSSym exMSMol 5 0).globals (by unfold SitesApart; decide +kernel)
example := (C95_soa_pair exMSSetUp exMSSym false exMSMol (fun i => exMSMol (i + 2)) 2 3 0).globals (by unfold SitesApart; decide +kernel)
example := (C95_soa_list exMSSetUp exMSSym true exMSMol (n := 5) (first := 1) (by decide) [0, 3, 2, 4] 0).globals (by unfold SitesApart; decide +kernel)

/-- Two threads; every pair of molecules in reach is served. -/
example := C95_all_molecules exMSSetUp exMSSym exMSMol (cutoff := 3) (by norm_num [exMSC]) (all := List.range 5) (by decide) [[⟨0, 1, true⟩, ⟨2, 0, true⟩], [⟨1, 2, true⟩]]
  ⟨by unfold distSq; decide +kernel, by
    intro a b
    have h : ∀ l : List (Nat × Nat), l.Nodup → l.count (a, b) ≤ 1 := fun l hl => List.nodup_iff_count_le_one.1 hl _
    exact h _ (by decide), by
    intro a b h
    have h' : (a, b) ∈ contributions [(⟨0, 1, true⟩ : PairCall Nat), ⟨2, 0, true⟩, ⟨1, 2, true⟩] := List.count_pos_iff.1 (Nat.pos_of_ne_zero h)
    have key : ∀ e ∈ contributions [(⟨0, 1, true⟩ : PairCall Nat), ⟨2, 0, true⟩, ⟨1, 2, true⟩], e.1 ∈ List.range 5 ∧ e.2 ∈ List.range 5 ∧ e.1 ≠ e.2 := by decide
    exact key _ h'⟩
  (by unfold SitesApart; decide +kernel)

private noncomputable def exMSParR : LJParams ℝ := ⟨fun _ _ => 1, fun _ _ => 1, fun _ _ => 1⟩
private noncomputable def exMSSitesR : MolSites ℝ := fun _ => [(0, ⟨1 / 2, 0, 0⟩), (1, ⟨-1 / 2, 0, 0⟩)]

private theorem exMSApartR : ∀ b ∈ [(⟨⟨0, 2, 0⟩, ⟨1, 0, 0, 0⟩, 0, .owned⟩ : MSMol ℝ), ⟨⟨0, 0, 5⟩, ⟨1, 0, 0, 0⟩, 0, .owned⟩],
    SitesApart exMSSitesR 9 ⟨⟨0, 0, 0⟩, ⟨1, 0, 0, 0⟩, 0, .owned⟩ b ∧ normSq ((⟨0, 0, 0⟩ : V3 ℝ) - b.pos) ≠ 9 := by
  intro b hb
  simp only [List.mem_cons, List.not_mem_nil, or_false] at hb
  rcases hb with rfl | rfl
  · refine ⟨fun _ s h1 t h2 h => ?_, by norm_num [normSq]⟩
    have h3 := congrArg V3.y h
    simp only [exMSSitesR, List.mem_cons, List.not_mem_nil, or_false] at h1 h2
    rcases h1 with rfl | rfl <;> rcases h2 with rfl | rfl <;> norm_num [sitePosition, rotatePosition, Q4.matrix] at h3
  · refine ⟨fun h => absurd h.2.2 (by norm_num [normSq]), by norm_num [normSq]⟩

example := C95_force_is_minus_gradient (par := exMSParR) (sites := exMSSitesR) 9 ⟨⟨0, 0, 0⟩, ⟨1, 0, 0, 0⟩, 0, .owned⟩ _ exMSApartR
example := C95_torque_is_minus_derivative (par := exMSParR) (sites := exMSSitesR) 9 ⟨⟨0, 0, 0⟩, ⟨1, 0, 0, 0⟩, 0, .owned⟩ _ (fun b hb => (exMSApartR b hb).1)
  (u := ⟨0, 0, 1⟩) (by norm_num [V3.inner])

end Verif
