import Verif.Lemmas.LJSums
/-!
# C73 — every kernel of the Lennard-Jones functor computes the textbook force and energy, in every data layout

`LJFunctor` has four kernels: one pair of particles (AoS), a cell, a pair of cells, a neighbour list (SoA, masked and vectorised). Whatever
kernel a configuration makes AutoPas use, a particle gets the same force: the sum of the textbook forces `ljF` of the other particles within
the cutoff (`ljForceOn`), and the potential energy and virial are those of the pairs, once for each owned particle of the pair.

The SoA kernels need `Apart`: no existing particle sits exactly on the position of another entry of the SoA. For existing particles that
is where the potential is singular; that it is also needed for deleted particles (dummies) is a defect, `C73_violated_on_deleted_particle`.
-/
namespace Verif
open Spec

section
variable {K : Type} [Field K] [LinearOrder K] [IsStrictOrderedRing K] {P : Type} [DecidableEq P]
variable {c : LJCfg K} {par : LJParams K}

/-- No existing particle of the first list sits on the position of another particle of the second. -/
def Apart (mol : P → Mol K) (l₁ l₂ : List P) : Prop :=
  ∀ a ∈ l₁, ∀ b ∈ l₂, a ≠ b → (mol a).own ≠ .dummy → (mol a).pos ≠ (mol b).pos

/-- The AoS kernel: `p` gets the force of `q`, with Newton 3 `q` gets that of `p`, nobody else gets anything. -/
theorem C73_aos_forces (h : SetUp c par) (hs : par.Symmetric) (mol : P → Mol K) (s : LJState P K) (p q : P) (newton3 : Bool) (hpq : p ≠ q)
    (hd : Interact c.cutoffSquared (mol p) (mol q) → (mol p).pos ≠ (mol q).pos) (r : P) :
    (ljAoSCall c mol s ⟨p, q, newton3⟩).force r = s.force r +
      (if r = p then ljForceOn par c.cutoffSquared (mol p) (mol q)
        else if r = q ∧ newton3 = true then ljForceOn par c.cutoffSquared (mol q) (mol p) else 0).fin := by
  rw [ljAoSCall_eq h hs mol s ⟨p, q, newton3⟩ hpq hd, LJState.add_force, Pi.add_apply, events_force]
  congr 2
  unfold contributions
  by_cases hr : r = p
  · subst hr
    have hqr : ¬ q = r := fun h' => hpq h'.symm
    cases newton3 <;> simp [hqr]
  · rw [if_neg hr]
    have hr' : ¬ p = r := fun h' => hr h'.symm
    by_cases hq : r = q
    · subst hq
      cases newton3 <;> simp [hr']
    · have hq' : ¬ q = r := fun h' => hq h'.symm
      cases newton3 <;> simp [hr', hq, hq']

/-- The AoS kernel adds six times the energy, and the virial, once for `p` if it is owned and, with Newton 3, once for `q` if it is owned. -/
theorem C73_aos_globals (h : SetUp c par) (hs : par.Symmetric) (mol : P → Mol K) (s : LJState P K) (p q : P) (newton3 : Bool) (hpq : p ≠ q)
    (hd : Interact c.cutoffSquared (mol p) (mol q) → (mol p).pos ≠ (mol q).pos) :
    (ljAoSCall c mol s ⟨p, q, newton3⟩).globals.potentialEnergySum = s.globals.potentialEnergySum +
      .fin (((if (mol p).own = .owned then 1 else 0) + (if newton3 = true ∧ (mol q).own = .owned then 1 else 0)) *
        (6 * ljEnergyOf par c.cutoffSquared (mol p) (mol q))) ∧
    (ljAoSCall c mol s ⟨p, q, newton3⟩).globals.virialSum = s.globals.virialSum +
      ((ljVirialOf par c.cutoffSquared (mol p) (mol q)).scale
        ((if (mol p).own = .owned then 1 else 0) + (if newton3 = true ∧ (mol q).own = .owned then 1 else 0))).fin := by
  rw [ljAoSCall_eq h hs mol s ⟨p, q, newton3⟩ hpq hd, LJState.add_globals, events_globals]
  unfold contributions
  constructor
  · change s.globals.potentialEnergySum + _ = _
    congr 2
    cases newton3 <;> by_cases h1 : (mol p).own = .owned <;> by_cases h2 : (mol q).own = .owned <;>
      simp [h1, h2, energyOf_swap hs _ (mol p) (mol q)]
    ring
  · change s.globals.virialSum + _ = _
    congr 2
    cases newton3 <;> by_cases h1 : (mol p).own = .owned <;> by_cases h2 : (mol q).own = .owned <;>
      simp [h1, h2, virialOf_swap hs _ (mol p) (mol q)] <;>
      refine V3.ext' ?_ ?_ ?_ <;> simp <;> ring

/-- One cell: every particle of it gets the forces of all other particles of the cell. -/
theorem C73_cell_forces_partial (h : SetUp c par) (hs : par.Symmetric) (mol : P → Mol K) {l : List P} (hl : l.Nodup) (hd : Apart mol l l)
    (s : LJState P K) (a : P) :
    (ljCellSoA c mol l s).force a =
      s.force a + (if a ∈ l then ((l.filter fun b => b ≠ a).map fun b => ljForceOn par c.cutoffSquared (mol a) (mol b)).sum else 0).fin := by
  rw [ljCellSoA_eq h hs mol hl false s hd, LJState.add_force, Pi.add_apply, events_force]
  congr 2
  rw [(((contributions_single_perm false hl).filter fun e => decide (e.1 = a)).map _).sum_eq]
  by_cases ha : a ∈ l
  · rw [if_pos ha, filter_orderedPairs hl ha, List.map_map]
    rfl
  · rw [if_neg ha, filter_orderedPairs_of_notMem ha]
    rfl

/-- Two cells: the particles of the first get the forces of those of the second; with Newton 3 also the other way round. -/
theorem C73_cell_pair_forces_partial (h : SetUp c par) (hs : par.Symmetric) (mol : P → Mol K) {l₁ l₂ : List P} (hl₁ : l₁.Nodup) (hl₂ : l₂.Nodup)
    (hdis : ∀ p ∈ l₁, p ∉ l₂) (hd : Apart mol l₁ l₂) (newton3 : Bool) (s : LJState P K) (a : P) :
    (ljCellPairSoA c newton3 mol l₁ l₂ s).force a = s.force a +
      (if a ∈ l₁ then (l₂.map fun b => ljForceOn par c.cutoffSquared (mol a) (mol b)).sum
        else if a ∈ l₂ ∧ newton3 = true then (l₁.map fun b => ljForceOn par c.cutoffSquared (mol a) (mol b)).sum else 0).fin := by
  have hd' : ∀ a ∈ l₁, ∀ b ∈ l₂, (mol a).own ≠ .dummy → (mol a).pos ≠ (mol b).pos :=
    fun a ha b hb => hd a ha b hb (fun h' => hdis a ha (h' ▸ hb))
  rw [ljCellPairSoA_eq h hs mol hl₁ hl₂ hdis newton3 s hd', LJState.add_force, Pi.add_apply, events_force]
  congr 2
  have tw : ∀ m : List P, untilBreak (fun _ => false) m = m := by
    intro m
    unfold untilBreak
    induction m with
    | nil => rfl
    | cons y m ih => rw [List.takeWhile_cons_of_pos rfl, ih]
  have e : contributions (soaPair newton3 l₁ l₂) = l₁.flatMap fun x => l₂.flatMap fun y => (x, y) :: (if newton3 then [(y, x)] else []) := by
    unfold contributions soaPair crossLoop
    simp only [tw, List.flatMap_map, List.flatMap_assoc, List.map_flatMap, List.map_map, Function.comp_def]
  rw [e, List.filter_flatMap]
  have inner : ∀ x ∈ l₁, ((l₂.flatMap fun y => (x, y) :: (if newton3 then [(y, x)] else [])).filter fun e => decide (e.1 = a)) =
      if x = a then l₂.map (fun y => (a, y)) else if a ∈ l₂ ∧ newton3 = true then [(a, x)] else [] := by
    intro x hx
    have hx2 := hdis x hx
    clear e hd hd' hdis
    induction l₂ with
    | nil => simp
    | cons y l₂ ih =>
      obtain ⟨hy, hl₂'⟩ := List.nodup_cons.1 hl₂
      have hxy : x ≠ y := fun h' => hx2 (h' ▸ List.mem_cons_self)
      rw [List.flatMap_cons, List.filter_append, ih hl₂' (fun h' => hx2 (List.mem_cons_of_mem _ h'))]
      by_cases hxa : x = a
      · subst hxa
        have hyx : ¬ y = x := fun h' => hxy h'.symm
        cases newton3 <;> simp [hyx]
      · by_cases hya : y = a
        · subst hya
          cases newton3 <;> simp [hxa, hy]
        · have hya' : ¬ a = y := fun h' => hya h'.symm
          cases newton3 <;> simp [hxa, hya, hya']
  have e2 : (l₁.flatMap fun x => (l₂.flatMap fun y => (x, y) :: (if newton3 then [(y, x)] else [])).filter fun e => decide (e.1 = a)) =
      l₁.flatMap fun x => if x = a then l₂.map (fun y => (a, y)) else if a ∈ l₂ ∧ newton3 = true then [(a, x)] else [] :=
    congrArg List.flatten (List.map_congr_left inner)
  rw [e2]
  by_cases ha : a ∈ l₁
  · rw [if_pos ha]
    have hn : a ∉ l₂ := hdis a ha
    have one : ∀ m : List P, m.Nodup → a ∈ m →
        (m.flatMap fun x => if x = a then l₂.map (fun y => (a, y)) else if a ∈ l₂ ∧ newton3 = true then [(a, x)] else []) =
          l₂.map fun y => (a, y) := by
      intro m hm ham
      induction m with
      | nil => cases ham
      | cons x m ih =>
        obtain ⟨hxm, hm'⟩ := List.nodup_cons.1 hm
        rw [List.flatMap_cons]
        by_cases hxa : x = a
        · subst hxa
          rw [if_pos rfl]
          have : (m.flatMap fun z => if z = x then l₂.map (fun y => (x, y)) else if x ∈ l₂ ∧ newton3 = true then [(x, z)] else []) = [] := by
            rw [List.flatMap_eq_nil_iff]
            intro z hz
            rw [if_neg (fun h' : z = x => hxm (h' ▸ hz)), if_neg (fun h' => hn h'.1)]
          rw [this, List.append_nil]
        · rw [if_neg hxa, if_neg (fun h' => hn h'.1), ih hm' ((List.mem_cons.1 ham).resolve_left fun h' => hxa h'.symm)]
          rfl
    rw [one l₁ hl₁ ha, List.map_map]
    rfl
  · rw [if_neg ha]
    have e3 : (l₁.flatMap fun x => if x = a then l₂.map (fun y => (a, y)) else if a ∈ l₂ ∧ newton3 = true then [(a, x)] else []) =
        l₁.flatMap fun x => if a ∈ l₂ ∧ newton3 = true then [(a, x)] else [] := by
      refine congrArg List.flatten (List.map_congr_left ?_)
      intro x hx
      rw [if_neg (fun h' : x = a => ha (h' ▸ hx))]
    rw [e3]
    by_cases h2 : a ∈ l₂ ∧ newton3 = true
    · simp only [if_pos h2]
      rw [← List.map_eq_flatMap, List.map_map]
      rfl
    · rw [if_neg h2]
      simp only [if_neg h2]
      rw [List.flatMap_eq_nil_iff.2 (fun _ _ => rfl)]
      rfl

/-- A neighbour list: the particle gets the forces of those of its list; with Newton 3 they get its force. -/
theorem C73_list_forces_partial (h : SetUp c par) (hs : par.Symmetric) (mol : P → Mol K) {l : List P} (hl : l.Nodup) (newton3 : Bool)
    (vecsize : Nat) (first : Nat) (list : List Nat) (hlist : list.Nodup) (hf : first < l.length) (hj : ∀ j ∈ list, j < l.length ∧ j ≠ first)
    (hd : Apart mol l l) (s : LJState P K) (a : Nat) (ha : a < l.length) :
    (ljListSoA c newton3 vecsize mol l first list s).force l[a] = s.force l[a] +
      (if a = first then (list.map fun j => ljForceOn par c.cutoffSquared (mol l[first]) (mol (l.getD j l[first]))).sum
        else if a ∈ list ∧ newton3 = true then ljForceOn par c.cutoffSquared (mol l[a]) (mol l[first]) else 0).fin := by
  rw [ljListSoA_eq h hs mol hl newton3 vecsize l[first] first list hf (fun j hm => (hj j hm).1) s (by
    intro j hm
    have hjl := (hj j hm).1
    rw [List.getD_eq_getElem _ _ hf, List.getD_eq_getElem _ _ hjl]
    refine hd _ (List.getElem_mem _) _ (List.getElem_mem _) ?_
    intro hh
    exact (hj j hm).2 ((List.Nodup.getElem_inj_iff hl).1 hh).symm), LJState.add_force, Pi.add_apply, events_force]
  congr 2
  rw [List.getD_eq_getElem _ _ hf]
  unfold contributions
  rw [List.flatMap_map, List.filter_flatMap]
  by_cases haf : a = first
  · subst haf
    rw [if_pos rfl]
    have : (list.flatMap fun j => (((l[a], l.getD j l[a]) : P × P) :: (if newton3 = true then [(l.getD j l[a], l[a])] else [])).filter
        fun e => decide (e.1 = l[a])) = list.map fun j => (l[a], l.getD j l[a]) := by
      rw [List.map_eq_flatMap]
      refine congrArg List.flatten (List.map_congr_left ?_)
      intro j hm
      have hne : ¬ l.getD j l[a] = l[a] := by
        rw [List.getD_eq_getElem _ _ (hj j hm).1]
        intro hh
        exact (hj j hm).2 ((List.Nodup.getElem_inj_iff hl).1 hh)
      rw [List.filter_cons_of_pos (by simp)]
      cases newton3
      · rfl
      · simp only [if_true]
        rw [List.filter_cons_of_neg (by simpa using hne)]
        rfl
    rw [this, List.map_map]
    rfl
  · rw [if_neg haf]
    have hne : ¬ l[first] = l[a] := fun hh => haf ((List.Nodup.getElem_inj_iff hl).1 hh).symm
    have : (list.flatMap fun j => (((l[first], l.getD j l[first]) : P × P) :: (if newton3 = true then [(l.getD j l[first], l[first])] else [])).filter
        fun e => decide (e.1 = l[a])) = if a ∈ list ∧ newton3 = true then [(l[a], l[first])] else [] := by
      clear hd
      induction list with
      | nil => simp
      | cons j list ih =>
        obtain ⟨hjn, hlist'⟩ := List.nodup_cons.1 hlist
        rw [List.flatMap_cons, ih hlist' (fun x hx => hj x (List.mem_cons_of_mem _ hx)), List.filter_cons_of_neg (by simpa using hne)]
        have hjl := (hj j List.mem_cons_self).1
        rw [List.getD_eq_getElem _ _ hjl]
        cases newton3
        · simp
        · by_cases hja : j = a
          · subst hja
            simp [hjn]
          · have hja' : ¬ a = j := fun h' => hja h'.symm
            have : ¬ l[j] = l[a] := fun hh => hja ((List.Nodup.getElem_inj_iff hl).1 hh)
            simp [this, hja']
    rw [this]
    by_cases h2 : a ∈ list ∧ newton3 = true
    · simp only [if_pos h2]
      simp
    · simp only [if_neg h2]
      simp

/-- One cell: the SoA kernel does to the forces, the potential energy and the virial exactly what the AoS kernel does when it is called for
every pair of particles of the cell, with or without Newton 3. -/
theorem C73_cell_as_aos_partial (h : SetUp c par) (hs : par.Symmetric) (mol : P → Mol K) {l : List P} (hl : l.Nodup) (hd : Apart mol l l)
    (newton3 : Bool) (s : LJState P K) : ljCellSoA c mol l s = ljRun c mol s (soaSingle newton3 l) := by
  rw [ljCellSoA_eq h hs mol hl newton3 s hd, ljRun_eq h hs]
  intro call hcall
  have hmem : (call.p, call.q) ∈ contributions (soaSingle newton3 l) := by
    unfold contributions
    exact List.mem_flatMap.2 ⟨call, hcall, List.mem_cons_self⟩
  have := (contributions_single_perm newton3 hl).mem_iff.1 hmem
  unfold orderedPairs at this
  obtain ⟨x, hx, this⟩ := List.mem_flatMap.1 this
  obtain ⟨y, hy, this⟩ := List.mem_map.1 this
  obtain ⟨rfl, rfl⟩ := Prod.ext_iff.1 this
  obtain ⟨hy, hne⟩ := List.mem_filter.1 hy
  have hne : call.p ≠ call.q := fun h' => by simp [h'] at hne
  exact ⟨hne, fun hI => hd _ hx _ hy hne hI.1⟩

/-- Two cells: likewise. -/
theorem C73_cell_pair_as_aos_partial (h : SetUp c par) (hs : par.Symmetric) (mol : P → Mol K) {l₁ l₂ : List P} (hl₁ : l₁.Nodup) (hl₂ : l₂.Nodup)
    (hdis : ∀ p ∈ l₁, p ∉ l₂) (hd : Apart mol l₁ l₂) (newton3 : Bool) (s : LJState P K) :
    ljCellPairSoA c newton3 mol l₁ l₂ s = ljRun c mol s (soaPair newton3 l₁ l₂) := by
  have hne : ∀ a ∈ l₁, ∀ b ∈ l₂, a ≠ b := fun a ha b hb h' => hdis a ha (h' ▸ hb)
  rw [ljCellPairSoA_eq h hs mol hl₁ hl₂ hdis newton3 s (fun a ha b hb => hd a ha b hb (hne a ha b hb)), ljRun_eq h hs]
  intro call hcall
  unfold soaPair crossLoop at hcall
  obtain ⟨t, ht, rfl⟩ := List.mem_map.1 hcall
  obtain ⟨x, hx, ht⟩ := List.mem_flatMap.1 ht
  obtain ⟨y, hy, rfl⟩ := List.mem_map.1 ht
  have hy : y ∈ l₂ := (List.takeWhile_sublist _).subset hy
  exact ⟨hne x hx y hy, fun hI => hd x hx y hy (hne x hx y hy) hI.1⟩

/-- A neighbour list: likewise; the vector length does not matter. -/
theorem C73_list_as_aos_partial (h : SetUp c par) (hs : par.Symmetric) (mol : P → Mol K) {l : List P} (hl : l.Nodup) (newton3 : Bool)
    (vecsize : Nat) (d : P) (first : Nat) (list : List Nat) (hf : first < l.length) (hj : ∀ j ∈ list, j < l.length ∧ j ≠ first)
    (hd : Apart mol l l) (s : LJState P K) :
    ljListSoA c newton3 vecsize mol l first list s = ljRun c mol s (list.map fun j => ⟨l.getD first d, l.getD j d, newton3⟩) := by
  have hne : ∀ j ∈ list, l.getD first d ≠ l.getD j d := by
    intro j hm hh
    rw [List.getD_eq_getElem _ _ hf, List.getD_eq_getElem _ _ (hj j hm).1] at hh
    exact (hj j hm).2 ((List.Nodup.getElem_inj_iff hl).1 hh).symm
  have mem : ∀ j, j < l.length → l.getD j d ∈ l := fun j hm => by rw [List.getD_eq_getElem _ _ hm]; exact List.getElem_mem _
  rw [ljListSoA_eq h hs mol hl newton3 vecsize d first list hf (fun j hm => (hj j hm).1) s
    (fun j hm => hd _ (mem first hf) _ (mem j (hj j hm).1) (hne j hm)), ljRun_eq h hs]
  intro call hcall
  obtain ⟨j, hm, rfl⟩ := List.mem_map.1 hcall
  exact ⟨hne j hm, fun hI => hd _ (mem first hf) _ (mem j (hj j hm).1) (hne j hm) hI.1⟩

end

/-! Concrete: ε = 1/24, σ = 1, cutoff 2; particle 0 is owned, 1 is a halo particle at distance 1, 2 is a dummy, 3 is out of reach. -/

private def exLJ : LJCfg Rat := ⟨false, false, 4, 1, 1, 0, fun _ _ => 0, fun _ _ => 0, fun _ _ => 0⟩
private def exPar : LJParams Rat := ⟨fun _ _ => 1/24, fun _ _ => 1, fun _ _ => 0⟩
private theorem exSetUp : SetUp exLJ exPar :=
  ⟨fun _ _ => by simp [exLJ, exPar, LJCfg.eps], fun _ _ => by simp [exLJ, exPar, LJCfg.sig], fun _ _ => by simp [exLJ, exPar, LJCfg.shift]⟩
private theorem exSymm : exPar.Symmetric := ⟨fun _ _ => rfl, fun _ _ => rfl, fun _ _ => rfl⟩

private def exMol (dummyAt : Rat) (p : Nat) : Mol Rat :=
  if p = 0 then ⟨⟨0, 0, 0⟩, 0, .owned⟩ else if p = 1 then ⟨⟨1, 0, 0⟩, 0, .halo⟩ else if p = 2 then ⟨⟨dummyAt, 0, 0⟩, 0, .dummy⟩
  else ⟨⟨5, 0, 0⟩, 0, .owned⟩

private theorem exApart : Apart (exMol (1/2)) [0, 1, 2, 3] [0, 1, 2, 3] := by unfold Apart; decide +kernel

private def exZero : LJState Nat Rat := ⟨fun _ => 0, .zero⟩

example : (ljCellSoA exLJ (exMol (1/2)) [0, 1, 2, 3] exZero).force 0 = ⟨.fin (-1), .fin 0, .fin 0⟩ := by decide +kernel

example : (ljCellSoA exLJ (exMol (1/2)) [0, 1, 2, 3] exZero).force 0 =
    exZero.force 0 + (([1, 2, 3].map fun b => ljForceOn exPar 4 (exMol (1/2) 0) (exMol (1/2) b)).sum).fin :=
  C73_cell_forces_partial exSetUp exSymm (exMol (1/2)) (by decide) exApart exZero 0

example (newton3 : Bool) : ljCellSoA exLJ (exMol (1/2)) [0, 1, 2, 3] exZero = ljRun exLJ (exMol (1/2)) exZero (soaSingle newton3 [0, 1, 2, 3]) :=
  C73_cell_as_aos_partial exSetUp exSymm (exMol (1/2)) (by decide) exApart newton3 exZero

example : ljCellPairSoA exLJ true (exMol (1/2)) [0, 2] [1, 3] exZero = ljRun exLJ (exMol (1/2)) exZero (soaPair true [0, 2] [1, 3]) :=
  C73_cell_pair_as_aos_partial exSetUp exSymm (exMol (1/2)) (by decide) (by decide) (by decide) (by unfold Apart; decide +kernel) true exZero

example : ljListSoA exLJ true 2 (exMol (1/2)) [0, 1, 2, 3] 0 [1, 2, 3] exZero =
    ljRun exLJ (exMol (1/2)) exZero ([1, 2, 3].map fun j => ⟨[0, 1, 2, 3].getD 0 0, [0, 1, 2, 3].getD j 0, true⟩) :=
  C73_list_as_aos_partial exSetUp exSymm (exMol (1/2)) (by decide) true 2 0 0 [1, 2, 3] (by decide) (by decide) exApart exZero

/-- Defect. A deleted particle (dummy) that lies exactly where an existing particle is makes the force of the existing particle infinite or
NaN in the SoA kernels: the mask is applied by multiplication, after dividing by the distance. The AoS kernel skips the dummy. -/
theorem C73_violated_on_deleted_particle :
    ∃ (mol : Nat → Mol Rat), (mol 2).own = .dummy ∧ (mol 0).own = .owned ∧
      (ljCellSoA exLJ mol [0, 1, 2] exZero).force 0 = ⟨.nonFinite, .nonFinite, .nonFinite⟩ ∧
      (ljCellSoA exLJ mol [0, 1, 2] exZero).globals.potentialEnergySum = .nonFinite ∧
      (ljCellPairSoA exLJ false mol [0, 1] [2] exZero).force 0 = ⟨.nonFinite, .nonFinite, .nonFinite⟩ ∧
      (ljRun exLJ mol exZero (soaSingle true [0, 1, 2])).force 0 = ⟨.fin (-1), .fin 0, .fin 0⟩ ∧
      (ljRun exLJ mol exZero (soaSingle true [0, 1, 2])).globals.potentialEnergySum = .fin 0 := by
  refine ⟨exMol 0, ?_, ?_, ?_, ?_, ?_, ?_, ?_⟩ <;> decide +kernel

end Verif
