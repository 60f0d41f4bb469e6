import Verif.Lemmas.LJAVX
/-! The kernels of the AVX functor on particles in memory, and many kernel calls. -/
namespace Verif
open Spec

section
variable {K : Type} [Field K] [LinearOrder K] [IsStrictOrderedRing K]
variable {c : LJCfg K} {par : LJParams K}

theorem avxPairOuter_eq (h : SetUp c par) (hs : par.Symmetric) (newton3 : Bool) {mol₁ mol₂ : Nat → Mol K} {n₂ i : Nat}
    (s : (ForceArr K × ForceArr K) × AvxAcc K)
    (hd : ∀ j, j < n₂ → Interact c.cutoffSquared (mol₁ i) (mol₂ j) → (mol₁ i).pos ≠ (mol₂ j).pos) :
    ∃ t, avxPairOuter c newton3 mol₁ mol₂ n₂ s i = some t ∧
    t.1.1 = s.1.1 + Pi.single i ((List.range n₂).map fun j => (ljForceOn par c.cutoffSquared (mol₁ i) (mol₂ j)).fin).sum ∧
    t.1.2 = s.1.2 + ((List.range n₂).map fun j => if newton3 then
          (Pi.single j (ljForceOn par c.cutoffSquared (mol₂ j) (mol₁ i)).fin : Nat → V3 (Num K)) else 0).sum ∧
    (⟨avxHSumV t.2.virial, avxHSum t.2.upot⟩ : LJGlobals K) = ⟨avxHSumV s.2.virial, avxHSum s.2.upot⟩ +
        ((List.range n₂).map fun j => ljShare par c.cutoffSquared (mol₁ i) (mol₂ j) +
          if newton3 then ljShare par c.cutoffSquared (mol₂ j) (mol₁ i) else 0).sum := by
  unfold avxPairOuter
  by_cases hi : (mol₁ i).own = .dummy
  · rw [if_pos hi]
    have z1 : ∀ j, ljForceOn par c.cutoffSquared (mol₁ i) (mol₂ j) = 0 := fun j => if_neg (fun h' => h'.1 hi)
    have z2 : ∀ j, ljForceOn par c.cutoffSquared (mol₂ j) (mol₁ i) = 0 := fun j => if_neg (fun h' => h'.2.1 hi)
    have z3 : ∀ j, ljShare par c.cutoffSquared (mol₁ i) (mol₂ j) = 0 := fun j => ljShare_zero (fun h' => h'.1 hi)
    have z4 : ∀ j, ljShare par c.cutoffSquared (mol₂ j) (mol₁ i) = 0 := fun j => ljShare_zero (fun h' => h'.2.1 hi)
    exact ⟨s, rfl, by simp [z1, V3.fin_zero], by simp [z2, V3.fin_zero], by simp [z3, z4]⟩
  · rw [if_neg hi]
    obtain ⟨r, hr, h1⟩ := avxInner_eq h hs newton3 hi (mol := mol₂) (n := n₂) (m := n₂) le_rfl hd (s.1.2, { s.2 with acc := fun _ => 0 })
    rw [hr]
    refine ⟨_, rfl, ?_, h1.force, h1.sums⟩
    have z : avxHSumV (fun _ => 0 : Reg (V3 (Num K))) = 0 := by rw [hsumV_eq]; simp
    have ha := h1.acc
    simp only [z, zero_add] at ha
    simp only
    rw [update_add, ha]

theorem avxPair_fold (h : SetUp c par) (hs : par.Symmetric) (newton3 : Bool) {mol₁ mol₂ : Nat → Mol K} {n₂ : Nat} (is : List Nat) :
    ∀ s : (ForceArr K × ForceArr K) × AvxAcc K,
    (∀ i ∈ is, ∀ j, j < n₂ → Interact c.cutoffSquared (mol₁ i) (mol₂ j) → (mol₁ i).pos ≠ (mol₂ j).pos) →
    ∃ t, is.foldlM (avxPairOuter c newton3 mol₁ mol₂ n₂) s = some t ∧
    t.1.1 = s.1.1 + ((crossIndices is (List.range n₂)).map fun e =>
        (Pi.single e.1 (ljForceOn par c.cutoffSquared (mol₁ e.1) (mol₂ e.2)).fin : Nat → V3 (Num K))).sum ∧
    t.1.2 = s.1.2 + ((crossIndices is (List.range n₂)).map fun e => if newton3 then
        (Pi.single e.2 (ljForceOn par c.cutoffSquared (mol₂ e.2) (mol₁ e.1)).fin : Nat → V3 (Num K)) else 0).sum ∧
    (⟨avxHSumV t.2.virial, avxHSum t.2.upot⟩ : LJGlobals K) = ⟨avxHSumV s.2.virial, avxHSum s.2.upot⟩ +
      ((crossIndices is (List.range n₂)).map fun e =>
        ljShare par c.cutoffSquared (mol₁ e.1) (mol₂ e.2) +
          if newton3 then ljShare par c.cutoffSquared (mol₂ e.2) (mol₁ e.1) else 0).sum := by
  induction is with
  | nil => intro s _; exact ⟨s, rfl, by simp [crossIndices], by simp [crossIndices], by simp [crossIndices]⟩
  | cons i is ih =>
    intro s hd
    obtain ⟨t, ht, a1, a2, a3⟩ := avxPairOuter_eq h hs newton3 s (hd i List.mem_cons_self)
    obtain ⟨u, hu, b1, b2, b3⟩ := ih t (fun x hx => hd x (List.mem_cons_of_mem _ hx))
    have e : crossIndices (i :: is) (List.range n₂) = ((List.range n₂).map fun j => (i, j)) ++ crossIndices is (List.range n₂) := rfl
    refine ⟨u, ?_, ?_⟩
    · rw [List.foldlM_cons, ht]; exact hu
    · rw [b1, b2, b3, a1, a2, a3, e]
      simp only [List.map_append, List.sum_append, List.map_map, Function.comp_def, add_assoc]
      rw [single_sum]
      exact ⟨rfl, trivial, trivial⟩

variable {P : Type} [DecidableEq P]

/-- What two loaded SoAs hold after a kernel that adds the interactions of their entries, in memory. -/
theorem pair_transport (mol : P → Mol K) {l₁ l₂ : List P} (hl₁ : l₁.Nodup) (hl₂ : l₂.Nodup) (hdis : ∀ p ∈ l₁, p ∉ l₂) (newton3 : Bool) (d : P)
    (s : LJState P K) {F₁ F₂ : ForceArr K} {G : LJGlobals K}
    (r1 : F₁ = soaLoadForces l₁ s.force + ((crossIndices (List.range l₁.length) (List.range l₂.length)).map fun e =>
        (Pi.single e.1 (ljForceOn par c.cutoffSquared (soaLoadMols l₁ mol e.1) (soaLoadMols l₂ mol e.2)).fin : Nat → V3 (Num K))).sum)
    (r2 : F₂ = soaLoadForces l₂ s.force + ((crossIndices (List.range l₁.length) (List.range l₂.length)).map fun e => if newton3 then
        (Pi.single e.2 (ljForceOn par c.cutoffSquared (soaLoadMols l₂ mol e.2) (soaLoadMols l₁ mol e.1)).fin : Nat → V3 (Num K)) else 0).sum)
    (r3 : G = s.globals + ((crossIndices (List.range l₁.length) (List.range l₂.length)).map fun e =>
        ljShare par c.cutoffSquared (soaLoadMols l₁ mol e.1) (soaLoadMols l₂ mol e.2) +
          if newton3 then ljShare par c.cutoffSquared (soaLoadMols l₂ mol e.2) (soaLoadMols l₁ mol e.1) else 0).sum) :
    (⟨soaExtractForces l₂ F₂ (soaExtractForces l₁ F₁ s.force), G⟩ : LJState P K) =
      s + ((contributions (soaPair newton3 l₁ l₂)).map (ljEvent par c.cutoffSquared mol)).sum := by
  rw [contributions_soaPair_sum newton3 l₁ l₂ d mol]
  subst r1 r2 r3
  have mem : ∀ e ∈ crossIndices (List.range l₁.length) (List.range l₂.length), e.1 < l₁.length ∧ e.2 < l₂.length := by
    intro e he
    unfold crossIndices at he
    obtain ⟨i, hi, he⟩ := List.mem_flatMap.1 he
    obtain ⟨j, hj, rfl⟩ := List.mem_map.1 he
    exact ⟨List.mem_range.1 hi, List.mem_range.1 hj⟩
  have m1 : ∀ e ∈ crossIndices (List.range l₁.length) (List.range l₂.length), soaLoadMols l₁ mol e.1 = mol (l₁.getD e.1 d) :=
    fun e he => loadMols_get mol d (mem e he).1
  have m2 : ∀ e ∈ crossIndices (List.range l₁.length) (List.range l₂.length), soaLoadMols l₂ mol e.2 = mol (l₂.getD e.2 d) :=
    fun e he => loadMols_get mol d (mem e he).2
  refine LJState.ext' ?_ ?_
  · simp only [LJState.add_force]
    have key2 := fun (f : P → V3 (Num K)) => extract_sum hl₂ d (fun e : Nat × Nat => e.2)
      (fun e => (ljForceOn par c.cutoffSquared (soaLoadMols l₂ mol e.2) (soaLoadMols l₁ mol e.1)).fin) f
      (crossIndices (List.range l₁.length) (List.range l₂.length)) (soaLoadForces l₂ s.force) (fun e he => (mem e he).2)
    have key1 := extract_sum hl₁ d (fun e : Nat × Nat => e.1)
      (fun e => (ljForceOn par c.cutoffSquared (soaLoadMols l₁ mol e.1) (soaLoadMols l₂ mol e.2)).fin) s.force
      (crossIndices (List.range l₁.length) (List.range l₂.length)) (soaLoadForces l₁ s.force) (fun e he => (mem e he).1)
    rw [extract_load] at key1
    rw [key1]
    have c1 : (List.map (fun e : Nat × Nat => (Pi.single (l₁.getD e.1 d)
        (ljForceOn par c.cutoffSquared (soaLoadMols l₁ mol e.1) (soaLoadMols l₂ mol e.2)).fin : P → V3 (Num K)))
        (crossIndices (List.range l₁.length) (List.range l₂.length))) = List.map (fun e : Nat × Nat => (Pi.single (l₁.getD e.1 d)
        (ljForceOn par c.cutoffSquared (mol (l₁.getD e.1 d)) (mol (l₂.getD e.2 d))).fin : P → V3 (Num K)))
        (crossIndices (List.range l₁.length) (List.range l₂.length)) :=
      List.map_congr_left fun e he => by rw [m1 e he, m2 e he]
    have c2 : (List.map (fun e : Nat × Nat => (Pi.single (l₂.getD e.2 d)
        (ljForceOn par c.cutoffSquared (soaLoadMols l₂ mol e.2) (soaLoadMols l₁ mol e.1)).fin : P → V3 (Num K)))
        (crossIndices (List.range l₁.length) (List.range l₂.length))) = List.map (fun e : Nat × Nat => (Pi.single (l₂.getD e.2 d)
        (ljForceOn par c.cutoffSquared (mol (l₂.getD e.2 d)) (mol (l₁.getD e.1 d))).fin : P → V3 (Num K)))
        (crossIndices (List.range l₁.length) (List.range l₂.length)) :=
      List.map_congr_left fun e he => by rw [m1 e he, m2 e he]
    rw [c1]
    have hload : soaLoadForces l₂ s.force = soaLoadForces l₂ (s.force + (List.map (fun e : Nat × Nat => (Pi.single (l₁.getD e.1 d)
        (ljForceOn par c.cutoffSquared (mol (l₁.getD e.1 d)) (mol (l₂.getD e.2 d))).fin : P → V3 (Num K)))
        (crossIndices (List.range l₁.length) (List.range l₂.length))).sum) := by
      rw [← c1, ← key1]
      exact (load_extract_disjoint hdis _ _).symm
    cases newton3
    · simp only [Bool.false_eq_true, if_false, List.map_const', List.sum_replicate, nsmul_zero, add_zero]
      rw [hload, extract_load]
    · simp only [if_true]
      rw [key2, c2]
      conv_lhs => rw [hload, extract_load]
      rw [add_assoc]
  · simp only [LJState.add_globals]
    congr 2
    refine List.map_congr_left ?_
    intro e he
    rw [m1 e he, m2 e he]

variable [Inhabited P]

/-- As `KernelCall.Lists`; the neighbours of a list are different. -/
def KernelCall.AvxLists (k : KernelCall P) : Prop :=
  k.Lists ∧ match k with | .verlet _ _ _ list => list.Nodup | _ => True

theorem avxKernelCall_eq (h : SetUp c par) (hs : par.Symmetric) (mol : P → Mol K) (s : LJState P K) (k : KernelCall P)
    (hl : k.AvxLists) (hk : ∀ e ∈ contributions k.calls, e.1 ≠ e.2 ∧ (Interact c.cutoffSquared (mol e.1) (mol e.2) → (mol e.1).pos ≠ (mol e.2).pos)) :
    avxKernelCall c mol s k = some (s + ((contributions k.calls).map (ljEvent par c.cutoffSquared mol)).sum) := by
  cases k with
  | aos call =>
    have hm : (call.p, call.q) ∈ contributions [call] := by unfold contributions; simp
    exact congrArg some (ljAoSCall_eq h hs mol s call (hk _ hm).1 (hk _ hm).2)
  | single newton3 l =>
    have hn : l.Nodup := hl.1
    have hd : ∀ a ∈ l, ∀ b ∈ l, a ≠ b → Interact c.cutoffSquared (mol a) (mol b) → (mol a).pos ≠ (mol b).pos := by
      intro a ha b hb hab
      have : (a, b) ∈ contributions (soaSingle newton3 l) :=
        (contributions_single_perm newton3 hn).mem_iff.2 (List.mem_flatMap.2 ⟨a, ha, List.mem_map.2 ⟨b, List.mem_filter.2 ⟨hb, by simpa using fun h' => hab h'.symm⟩, rfl⟩⟩)
      exact (hk _ this).2
    change (avxSoASingle c (soaLoadMols l mol) l.length (soaLoadForces l s.force) s.globals).bind _ = _
    rcases l with _ | ⟨d, l'⟩
    · simp only [avxSoASingle, List.length_nil, if_true, Option.bind_some, KernelCall.calls, soaSingle, pairLoop, contributions, List.flatMap_nil,
        List.map_nil, List.sum_nil, add_zero]
      congr 1
    · generalize hl0 : d :: l' = l at *
      obtain ⟨t, ht, h1⟩ := avxSoASingle_eq h hs (mol := soaLoadMols l mol) (n := l.length) (soaLoadForces l s.force) s.globals (by
        intro i j hi hij
        rw [loadMols_get mol d hi, loadMols_get mol d (show j < l.length by omega), List.getD_eq_getElem _ _ hi,
          List.getD_eq_getElem _ _ (show j < l.length by omega)]
        refine hd _ (List.getElem_mem _) _ (List.getElem_mem _) ?_
        intro hh
        have := (List.Nodup.getElem_inj_iff hn).1 hh
        omega)
      rw [ht]
      change some _ = some _
      congr 1
      change _ = s + ((contributions (soaSingle newton3 l)).map (ljEvent par c.cutoffSquared mol)).sum
      rw [contributions_soaSingle newton3 l d]
      exact event_transport hn d mol s.force s.globals (allBothWays l.length) (fun e he => mem_allBothWays he) ⟨t.1, t.2⟩ h1
  | pair newton3 l₁ l₂ =>
    obtain ⟨n1, n2⟩ : l₁.Nodup ∧ l₂.Nodup := hl.1
    have hm : ∀ x ∈ l₁, ∀ y ∈ l₂, (x, y) ∈ contributions (soaPair newton3 l₁ l₂) := by
      intro x hx y hy
      unfold contributions
      exact List.mem_flatMap.2 ⟨_, mem_soaPair hx hy, List.mem_cons_self⟩
    have hdis : ∀ p ∈ l₁, p ∉ l₂ := fun p hp hp2 => (hk _ (hm p hp p hp2)).1 rfl
    change (avxSoAPair c newton3 (soaLoadMols l₁ mol) (soaLoadMols l₂ mol) l₁.length l₂.length (soaLoadForces l₁ s.force)
      (soaLoadForces l₂ s.force) s.globals).bind _ = some (s + ((contributions (soaPair newton3 l₁ l₂)).map (ljEvent par c.cutoffSquared mol)).sum)
    unfold avxSoAPair
    by_cases h0 : l₁.length = 0 ∨ l₂.length = 0
    · have e : soaPair newton3 l₁ l₂ = [] := by
        unfold soaPair crossLoop untilBreak
        rcases h0 with h0 | h0
        · rw [List.length_eq_zero_iff.1 h0]; rfl
        · rw [List.length_eq_zero_iff.1 h0]; simp
      rw [e, if_pos h0]
      simp only [contributions, List.flatMap_nil, List.map_nil, List.sum_nil, add_zero, Option.bind_some]
      congr 1
      refine LJState.ext' ?_ rfl
      simp only
      rw [extract_load, extract_load]
    · rw [if_neg h0]
      obtain ⟨d, hd1⟩ : ∃ d, d ∈ l₁ := List.exists_mem_of_length_pos (by omega)
      obtain ⟨t, ht, r1, r2, r3⟩ := avxPair_fold h hs newton3 (mol₁ := soaLoadMols l₁ mol) (mol₂ := soaLoadMols l₂ mol) (n₂ := l₂.length)
        (List.range l₁.length) ((soaLoadForces l₁ s.force, soaLoadForces l₂ s.force), .zero) (by
          intro i hi j hj
          rw [List.mem_range] at hi
          rw [loadMols_get mol d hi, loadMols_get mol d hj, List.getD_eq_getElem _ _ hi, List.getD_eq_getElem _ _ hj]
          exact (hk _ (hm _ (List.getElem_mem _) _ (List.getElem_mem _))).2)
      rw [ht]
      change some _ = some _
      congr 1
      refine pair_transport mol n1 n2 hdis newton3 d s r1 r2 ?_
      unfold AvxAcc.addTo
      rw [LJGlobals.plus_eq, r3, avxZero_sums, zero_add]
  | verlet newton3 l first list =>
    obtain ⟨⟨n1, n2, n3⟩, n4⟩ : (l.Nodup ∧ first < l.length ∧ ∀ j ∈ list, j < l.length) ∧ list.Nodup := hl
    change (avxSoAVerlet c newton3 (soaLoadMols l mol) l.length first list (soaLoadForces l s.force) s.globals).bind _ =
      some (s + ((contributions (list.map fun j => (⟨l.getD first default, l.getD j default, newton3⟩ : PairCall P))).map
        (ljEvent par c.cutoffSquared mol)).sum)
    obtain ⟨t, ht, h1⟩ := avxSoAVerlet_eq h hs newton3 (mol := soaLoadMols l mol) n2 n4 n3 (soaLoadForces l s.force) s.globals (by
      intro j hj
      rw [loadMols_get mol default n2, loadMols_get mol default (n3 j hj)]
      have : (l.getD first default, l.getD j default) ∈ contributions (list.map fun j => (⟨l.getD first default, l.getD j default, newton3⟩ : PairCall P)) := by
        unfold contributions
        exact List.mem_flatMap.2 ⟨_, List.mem_map.2 ⟨j, hj, rfl⟩, List.mem_cons_self⟩
      exact (hk _ this).2)
    rw [ht]
    change some _ = some _
    congr 1
    have e : contributions (list.map fun j => (⟨l.getD first default, l.getD j default, newton3⟩ : PairCall P)) =
        (contributions (list.map fun j => (⟨first, j, newton3⟩ : PairCall Nat))).map fun e => (l.getD e.1 default, l.getD e.2 default) := by
      unfold contributions
      simp only [List.flatMap_map, List.map_flatMap]
      refine congrArg List.flatten (List.map_congr_left ?_)
      intro j _
      cases newton3 <;> rfl
    rw [e]
    refine event_transport n1 default mol s.force s.globals _ ?_ ⟨t.1, t.2⟩ h1
    intro e he
    unfold contributions at he
    simp only [List.flatMap_map] at he
    obtain ⟨j, hm, he⟩ := List.mem_flatMap.1 he
    have := n3 j hm
    cases newton3
    · simp only [Bool.false_eq_true, if_false, List.mem_cons, List.not_mem_nil, or_false] at he
      subst he; exact ⟨n2, this⟩
    · simp only [if_true, List.mem_cons, List.not_mem_nil, or_false] at he
      rcases he with rfl | rfl
      · exact ⟨n2, this⟩
      · exact ⟨this, n2⟩

private theorem sum_set_add' {M : Type} [AddCommMonoid M] (l : List M) (d x : M) (i : Nat) (hi : i < l.length) :
    (l.set i (l.getD i d + x)).sum = l.sum + x := by
  induction l generalizing i with
  | nil => simp at hi
  | cons y l ih =>
    cases i with
    | zero => simp only [List.set_cons_zero, List.sum_cons, List.getD_cons_zero]; rw [add_assoc, add_assoc, add_comm x]
    | succ i =>
      simp only [List.set_cons_succ, List.sum_cons, List.getD_cons_succ]
      rw [ih i (by simpa using hi), add_assoc]

theorem avxJobs_total (h : SetUp c par) (hs : par.Symmetric) (mol : P → Mol K) (jobs : List (Nat × KernelCall P)) :
    ∀ s : LJThreads P K, (∀ j ∈ jobs, j.1 < s.threadData.length ∧ j.2.AvxLists ∧
      ∀ e ∈ contributions j.2.calls, e.1 ≠ e.2 ∧ (Interact c.cutoffSquared (mol e.1) (mol e.2) → (mol e.1).pos ≠ (mol e.2).pos)) →
    ∃ t, jobs.foldlM (avxJob c mol) s = some t ∧
      t.total = s.total + ((contributions (jobs.flatMap fun j => j.2.calls)).map (ljEvent par c.cutoffSquared mol)).sum := by
  induction jobs with
  | nil => intro s _; exact ⟨s, rfl, by simp [contributions]⟩
  | cons j jobs ih =>
    intro s hk
    obtain ⟨h1, h2, h3⟩ := hk j List.mem_cons_self
    have step : ∃ u, avxJob c mol s j = some u ∧ u.total = s.total + ((contributions j.2.calls).map (ljEvent par c.cutoffSquared mol)).sum ∧
        u.threadData.length = s.threadData.length := by
      unfold avxJob
      rw [avxKernelCall_eq h hs mol _ j.2 h2 h3]
      refine ⟨_, rfl, ?_, by simp⟩
      unfold LJThreads.total
      refine LJState.ext' rfl ?_
      exact sum_set_add' _ _ _ _ h1
    obtain ⟨u, hu, e1, e2⟩ := step
    obtain ⟨t, ht, e3⟩ := ih u (fun x hx => by rw [e2]; exact hk x (List.mem_cons_of_mem _ hx))
    refine ⟨t, ?_, ?_⟩
    · rw [List.foldlM_cons, hu]; exact ht
    · rw [e3, e1, List.flatMap_cons, contributions_append, List.map_append, List.sum_append, add_assoc]

theorem avxCompute_eq (h : SetUp c par) (hs : par.Symmetric) (threads : Nat) (mol : P → Mol K) (force : P → V3 (Num K))
    (jobs : List (Nat × KernelCall P)) (hk : ∀ j ∈ jobs, j.1 < threads ∧ j.2.AvxLists)
    (hap : ∀ e ∈ contributions (jobs.flatMap fun j => j.2.calls),
      e.1 ≠ e.2 ∧ (Interact c.cutoffSquared (mol e.1) (mol e.2) → (mol e.1).pos ≠ (mol e.2).pos)) :
    let t := ((contributions (jobs.flatMap fun j => j.2.calls)).map (ljEvent par c.cutoffSquared mol)).sum
    avxCompute c threads mol force jobs =
      some (force + t.force, t.globals.potentialEnergySum * .fin (1 / 2) / .fin 6, t.globals.virialSum.scale (.fin (1 / 2))) := by
  intro t
  obtain ⟨u, hu, this⟩ := avxJobs_total h hs mol jobs ⟨force, ljInitTraversal threads⟩ (by
    intro j hj
    refine ⟨by simpa [ljInitTraversal] using (hk j hj).1, (hk j hj).2, ?_⟩
    intro e he
    refine hap e ?_
    unfold contributions at he ⊢
    obtain ⟨call, h1, h2⟩ := List.mem_flatMap.1 he
    exact List.mem_flatMap.2 ⟨call, List.mem_flatMap.2 ⟨j, hj, h1⟩, h2⟩)
  have z : (ljInitTraversal threads : List (LJGlobals K)).sum = 0 := by
    unfold ljInitTraversal
    rw [LJGlobals.zero_eq]
    simp
  unfold avxCompute
  rw [hu]
  change some _ = some _
  congr 1
  simp only [ljEndTraversal_eq]
  have e1 := congrArg LJState.force this
  have e2 := congrArg LJState.globals this
  rw [LJState.add_force] at e1
  rw [LJState.add_globals] at e2
  unfold LJThreads.total at e1 e2
  simp only [z, zero_add] at e1 e2
  rw [e1, e2]

end
end Verif
