import Verif.Model.LJTraversal
import Verif.Lemmas.LJSums
import Verif.Lemmas.WithRemainder
/-! Kernel calls of the Lennard-Jones functor on many threads add up to the sum over all directed interactions. -/
namespace Verif
open Spec

section
variable {P : Type} [Inhabited P]

theorem cellKernels_calls (f : CellFunctorCfg P) (cell : PCell P) : (f.cellKernels cell).flatMap KernelCall.calls = f.cell cell := by
  unfold CellFunctorCfg.cellKernels
  by_cases hs : f.soa = true
  · rw [if_pos hs]
    unfold CellFunctorCfg.cell
    rw [if_pos hs]
    split
    · rfl
    · split
      · rfl
      · simp [KernelCall.calls]
  · rw [if_neg hs, List.flatMap_map]
    simp [KernelCall.calls]

theorem cellPairKernels_calls (f : CellFunctorCfg P) (dir : V3 Rat) (a b : PCell P) :
    (f.cellPairKernels dir a b).flatMap KernelCall.calls = f.cellPair dir a b := by
  unfold CellFunctorCfg.cellPairKernels
  by_cases hs : f.soa = true
  · rw [if_pos hs]
    unfold CellFunctorCfg.cellPair
    rw [if_pos hs]
    split
    · rfl
    · split
      · rfl
      · rw [List.flatMap_cons]
        congr 1
        split <;> simp [KernelCall.calls]
  · rw [if_neg hs, List.flatMap_map]
    simp [KernelCall.calls]

theorem runKernels_calls (f : CellFunctorCfg P) (cells : List (PCell P)) (ops : List (List (List CellOp))) :
    (f.runKernels cells ops).flatMap KernelCall.calls = f.run cells ops := by
  unfold CellFunctorCfg.runKernels CellFunctorCfg.run
  rw [List.flatMap_assoc]
  refine congrArg List.flatten (List.map_congr_left fun op _ => ?_)
  cases op with
  | self i => exact cellKernels_calls f _
  | pair i j dir => exact cellPairKernels_calls f _ _ _

private theorem flatMap_id_cons {X : Type} (l : List X) : (l.flatMap fun x => [x]) = l := by
  induction l with
  | nil => rfl
  | cons x l ih => rw [List.flatMap_cons, ih]; rfl

private theorem single_true (l : List P) : soaSingle true l = soaSingleN3 l := by
  unfold soaSingle soaSingleN3 interactCross
  simp [List.map_eq_flatMap]

theorem remBufferBufferKernels_calls (pb : List (List P)) :
    (remBufferBufferKernels pb).flatMap KernelCall.calls = remBufferBuffer pb := by
  unfold remBufferBufferKernels remBufferBuffer remBufferBufferTask
  rw [List.flatMap_assoc]
  refine congrArg List.flatten (List.map_congr_left fun i _ => ?_)
  rw [List.flatMap_map]
  refine congrArg List.flatten (List.map_congr_left fun jj _ => ?_)
  by_cases h : i = (i + jj) % pb.length
  · simp only [if_pos h]
    exact single_true _
  · simp only [if_neg h]
    rfl

theorem remBufferHaloBufferKernels_calls (pb hb : List (List P)) :
    (remBufferHaloBufferKernels pb hb).flatMap KernelCall.calls = remBufferHaloBuffer pb hb := by
  unfold remBufferHaloBufferKernels remBufferHaloBuffer remBufferHaloBufferTask
  rw [List.flatMap_assoc]
  refine congrArg List.flatten (List.map_congr_left fun i _ => ?_)
  rw [List.flatMap_map]
  rfl

theorem remainder2BKernels_calls (pos : P → V3 Rat) (own : P → Ownership) (newton3 : Bool) (cutoff : Rat) (cont : List P)
    (pb hb : List (List P)) :
    (remainder2BKernels pos own newton3 cutoff cont pb hb).flatMap KernelCall.calls = remainder2B pos own newton3 cutoff cont pb hb := by
  unfold remainder2BKernels remainder2B
  simp only [List.flatMap_append, remBufferBufferKernels_calls, remBufferHaloBufferKernels_calls, List.flatMap_map]
  congr 2
  exact flatMap_id_cons _

end

instance : Inhabited Slot := ⟨⟨0, 0, 0, ⟨0, ⟨0, 0, 0⟩, .dummy⟩⟩⟩

theorem kernels_calls (c : LHParams) (s : LHState) (t : LCTraversal) (f : CellFunctorCfg Slot) :
    (s.kernels c t f).flatMap KernelCall.calls = s.interactions c t f := by
  unfold LHState.kernels LHState.interactions
  rw [List.flatMap_append, runKernels_calls, remainder2BKernels_calls]

section
variable {K : Type} [Field K] [LinearOrder K] [IsStrictOrderedRing K] {P : Type} [DecidableEq P] [Inhabited P]
variable {c : LJCfg K} {par : LJParams K}

/-- The lists of a kernel call hold different particles. -/
def KernelCall.Lists : KernelCall P → Prop
  | .aos _ => True
  | .single _ l => l.Nodup
  | .pair _ l₁ l₂ => l₁.Nodup ∧ l₂.Nodup
  | .verlet _ l first list => l.Nodup ∧ first < l.length ∧ ∀ j ∈ list, j < l.length

/-- The two particles of a call are different, and if the first exists they do not sit on the same spot. -/
def CallApart (mol : P → Mol K) (call : PairCall P) : Prop :=
  call.p ≠ call.q ∧ ((mol call.p).own ≠ .dummy → (mol call.p).pos ≠ (mol call.q).pos)

theorem CallApart.ok {mol : P → Mol K} {call : PairCall P} (h : CallApart mol call) (rc2 : K) : CallOk rc2 mol call :=
  ⟨h.1, fun hI => h.2 hI.1⟩

private theorem untilBreak_all {X : Type} (m : List X) : untilBreak (fun _ => false) m = m := by
  unfold untilBreak
  induction m with
  | nil => rfl
  | cons y m ih => rw [List.takeWhile_cons_of_pos rfl, ih]

omit [Field K] [LinearOrder K] [IsStrictOrderedRing K] [DecidableEq P] [Inhabited P] in
theorem mem_soaPair {newton3 : Bool} {l₁ l₂ : List P} {x y : P} (hx : x ∈ l₁) (hy : y ∈ l₂) : (⟨x, y, newton3⟩ : PairCall P) ∈ soaPair newton3 l₁ l₂ := by
  unfold soaPair crossLoop
  refine List.mem_map.2 ⟨(x, y), List.mem_flatMap.2 ⟨x, hx, ?_⟩, rfl⟩
  rw [untilBreak_all]
  exact List.mem_map.2 ⟨y, hy, rfl⟩

theorem ljKernelCall_eq (h : SetUp c par) (hs : par.Symmetric) (vecsize : Nat) (mol : P → Mol K) (s : LJState P K) (k : KernelCall P)
    (hl : k.Lists) (hk : ∀ e ∈ contributions k.calls, e.1 ≠ e.2 ∧ ((mol e.1).own ≠ .dummy → (mol e.1).pos ≠ (mol e.2).pos)) :
    ljKernelCall c vecsize mol s k = s + ((contributions k.calls).map (ljEvent par c.cutoffSquared mol)).sum := by
  cases k with
  | aos call =>
    have hm : (call.p, call.q) ∈ contributions [call] := by unfold contributions; simp
    exact ljAoSCall_eq h hs mol s call (hk _ hm).1 (fun hI => (hk _ hm).2 hI.1)
  | single newton3 l =>
    have hl : l.Nodup := hl
    refine ljCellSoA_eq h hs mol hl newton3 s ?_
    intro a ha b hb hab
    have : (a, b) ∈ contributions (soaSingle newton3 l) :=
      (contributions_single_perm newton3 hl).mem_iff.2 (List.mem_flatMap.2 ⟨a, ha, List.mem_map.2 ⟨b, List.mem_filter.2 ⟨hb, by simpa using fun h' => hab h'.symm⟩, rfl⟩⟩)
    exact (hk _ this).2
  | pair newton3 l₁ l₂ =>
    obtain ⟨h1, h2⟩ : l₁.Nodup ∧ l₂.Nodup := hl
    have hm : ∀ x ∈ l₁, ∀ y ∈ l₂, (x, y) ∈ contributions (soaPair newton3 l₁ l₂) := by
      intro x hx y hy
      unfold contributions
      exact List.mem_flatMap.2 ⟨_, mem_soaPair hx hy, List.mem_cons_self⟩
    refine ljCellPairSoA_eq h hs mol h1 h2 ?_ newton3 s ?_
    · intro p hp hp2
      exact (hk _ (hm p hp p hp2)).1 rfl
    · intro a ha b hb
      exact (hk _ (hm a ha b hb)).2
  | verlet newton3 l first list =>
    obtain ⟨h1, h2, h3⟩ : l.Nodup ∧ first < l.length ∧ ∀ j ∈ list, j < l.length := hl
    refine ljListSoA_eq h hs mol h1 newton3 vecsize default first list h2 h3 s ?_
    intro j hj
    have : (l.getD first default, l.getD j default) ∈ contributions (list.map fun j => (⟨l.getD first default, l.getD j default, newton3⟩ : PairCall P)) := by
      unfold contributions
      exact List.mem_flatMap.2 ⟨_, List.mem_map.2 ⟨j, hj, rfl⟩, List.mem_cons_self⟩
    exact (hk _ this).2

/-- The sums of all threads together. -/
def LJThreads.total (s : LJThreads P K) : LJState P K := ⟨s.force, s.threadData.sum⟩

private theorem sum_set_add {M : Type} [AddCommMonoid M] (l : List M) (d x : M) (i : Nat) (hi : i < l.length) :
    (l.set i (l.getD i d + x)).sum = l.sum + x := by
  induction l generalizing i with
  | nil => simp at hi
  | cons y l ih =>
    cases i with
    | zero => simp only [List.set_cons_zero, List.sum_cons, List.getD_cons_zero]; rw [add_assoc, add_assoc, add_comm x]
    | succ i =>
      simp only [List.set_cons_succ, List.sum_cons, List.getD_cons_succ]
      rw [ih i (by simpa using hi), add_assoc]

theorem ljJobs_total (h : SetUp c par) (hs : par.Symmetric) (vecsize : Nat) (mol : P → Mol K) (jobs : List (Nat × KernelCall P)) :
    ∀ s : LJThreads P K, (∀ j ∈ jobs, j.1 < s.threadData.length ∧ j.2.Lists ∧
      ∀ e ∈ contributions j.2.calls, e.1 ≠ e.2 ∧ ((mol e.1).own ≠ .dummy → (mol e.1).pos ≠ (mol e.2).pos)) →
    (jobs.foldl (ljJob c vecsize mol) s).total =
      s.total + ((contributions (jobs.flatMap fun j => j.2.calls)).map (ljEvent par c.cutoffSquared mol)).sum := by
  induction jobs with
  | nil => intro s _; simp [contributions]
  | cons j jobs ih =>
    intro s hk
    obtain ⟨h1, h2, h3⟩ := hk j List.mem_cons_self
    have step : (ljJob c vecsize mol s j).total = s.total + ((contributions j.2.calls).map (ljEvent par c.cutoffSquared mol)).sum := by
      unfold ljJob
      simp only [ljKernelCall_eq h hs vecsize mol _ j.2 h2 h3]
      unfold LJThreads.total
      refine LJState.ext' rfl ?_
      exact sum_set_add _ _ _ _ h1
    have hlen : (ljJob c vecsize mol s j).threadData.length = s.threadData.length := by
      unfold ljJob
      simp
    rw [List.foldl_cons, ih _ (fun x hx => by rw [hlen]; exact hk x (List.mem_cons_of_mem _ hx)), step, List.flatMap_cons, contributions_append,
      List.map_append, List.sum_append, add_assoc]

omit [IsStrictOrderedRing K] in
theorem ljEndTraversal_eq (l : List (LJGlobals K)) :
    ljEndTraversal l = (l.sum.potentialEnergySum * .fin (1 / 2) / .fin 6, l.sum.virialSum.scale (.fin (1 / 2))) := by
  have key : ∀ (l : List (LJGlobals K)) (a : Num K) (b : V3 (Num K)),
      l.foldl (fun s d => (s.1 + d.potentialEnergySum, s.2 + d.virialSum)) (a, b) = (a + l.sum.potentialEnergySum, b + l.sum.virialSum) := by
    intro l
    induction l with
    | nil => intro a b; exact Prod.ext (add_zero a).symm (add_zero b).symm
    | cons d l ih =>
      intro a b
      rw [List.foldl_cons, ih, List.sum_cons]
      refine Prod.ext ?_ ?_
      · change a + d.potentialEnergySum + _ = a + (d.potentialEnergySum + _); rw [add_assoc]
      · change b + d.virialSum + _ = b + (d.virialSum + _); rw [add_assoc]
  unfold ljEndTraversal
  simp only [key, zero_add]

theorem ljCompute_eq (h : SetUp c par) (hs : par.Symmetric) (vecsize threads : Nat) (mol : P → Mol K) (force : P → V3 (Num K))
    (jobs : List (Nat × KernelCall P)) (hk : ∀ j ∈ jobs, j.1 < threads ∧ j.2.Lists)
    (hap : ∀ e ∈ contributions (jobs.flatMap fun j => j.2.calls), e.1 ≠ e.2 ∧ ((mol e.1).own ≠ .dummy → (mol e.1).pos ≠ (mol e.2).pos)) :
    let t := ((contributions (jobs.flatMap fun j => j.2.calls)).map (ljEvent par c.cutoffSquared mol)).sum
    ljCompute c vecsize threads mol force jobs =
      (force + t.force, t.globals.potentialEnergySum * .fin (1 / 2) / .fin 6, t.globals.virialSum.scale (.fin (1 / 2))) := by
  intro t
  have := ljJobs_total h hs vecsize mol jobs ⟨force, ljInitTraversal threads⟩ (by
    intro j hj
    refine ⟨by simpa [ljInitTraversal] using (hk j hj).1, (hk j hj).2, ?_⟩
    intro e he
    refine hap e ?_
    unfold contributions at he ⊢
    obtain ⟨call, h1, h2⟩ := List.mem_flatMap.1 he
    exact List.mem_flatMap.2 ⟨call, List.mem_flatMap.2 ⟨j, hj, h1⟩, h2⟩)
  have z : (ljInitTraversal threads : List (LJGlobals K)).sum = 0 := by
    unfold ljInitTraversal
    rw [LJGlobals.zero_eq]
    simp
  unfold ljCompute
  simp only [ljEndTraversal_eq]
  have e1 := congrArg LJState.force this
  have e2 := congrArg LJState.globals this
  rw [LJState.add_force] at e1
  rw [LJState.add_globals] at e2
  unfold LJThreads.total at e1 e2
  simp only [z, zero_add] at e1 e2
  rw [e1, e2]

end
end Verif
