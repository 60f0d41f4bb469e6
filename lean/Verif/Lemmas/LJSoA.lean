import Verif.Lemmas.LJ
/-! The SoA kernels of the Lennard-Jones functor as additions. -/
namespace Verif
open Spec

section
variable {K : Type} [Field K] [LinearOrder K] [IsStrictOrderedRing K]
variable {c : LJCfg K} {par : LJParams K}

/-- `energyFactor` times a finite value. -/
theorem energyFactor_share (hs : par.Symmetric) (both : Bool) (i j : Mol K) :
    (⟨⟨.fin (ljVirialOf par c.cutoffSquared i j).x * ljEnergyFactor both i j, .fin (ljVirialOf par c.cutoffSquared i j).y * ljEnergyFactor both i j,
      .fin (ljVirialOf par c.cutoffSquared i j).z * ljEnergyFactor both i j⟩,
      .fin (6 * ljEnergyOf par c.cutoffSquared i j) * ljEnergyFactor both i j⟩ : LJGlobals K) =
    ljShare par c.cutoffSquared i j + (if both then ljShare par c.cutoffSquared j i else 0) := by
  unfold ljShare
  rw [virialOf_swap hs _ i j, energyOf_swap hs _ i j]
  generalize ljVirialOf par c.cutoffSquared i j = v
  generalize 6 * ljEnergyOf par c.cutoffSquared i j = u
  unfold ljEnergyFactor
  cases both <;> by_cases h1 : i.own = .owned <;> by_cases h2 : j.own = .owned <;>
    simp only [h1, h2, if_true, if_false, Bool.false_eq_true, Num.fin_add, Num.fin_mul, add_zero, zero_add, mul_zero, mul_one, mul_add] <;> rfl

/-- One iteration of the inner loop. -/
theorem ljInner_eq (h : SetUp c par) (hs : par.Symmetric) (write both : Bool) {i : Mol K} {mol : Nat → Mol K} (s : LJInner K) {j : Nat}
    (hi : i.own ≠ .dummy) (hd : i.pos ≠ (mol j).pos) :
    ljInner c write both i mol s j =
      ⟨s.force + (if write then Pi.single j (ljForceOn par c.cutoffSquared (mol j) i).fin else 0),
        s.acc + (ljForceOn par c.cutoffSquared i (mol j)).fin,
        s.sums + (ljShare par c.cutoffSquared i (mol j) + if both then ljShare par c.cutoffSquared (mol j) i else 0)⟩ := by
  unfold ljInner
  simp only [kernelSoA_eq h hi hd]
  rw [LJGlobals.plus_eq]
  have e := energyFactor_share (c := c) hs both i (mol j)
  simp only [V3.fin_x, V3.fin_y, V3.fin_z]
  rw [e]
  congr 1
  cases write
  · simp
  · simp only [if_true]
    rw [← update_add, forceOn_swap hs _ i (mol j), V3.fin_neg]
    rfl

theorem ljInner_fold (h : SetUp c par) (hs : par.Symmetric) (write both : Bool) {i : Mol K} {mol : Nat → Mol K} (hi : i.own ≠ .dummy)
    (js : List Nat) : ∀ s : LJInner K, (∀ j ∈ js, i.pos ≠ (mol j).pos) →
    js.foldl (ljInner c write both i mol) s =
      ⟨s.force + (js.map fun j => if write then Pi.single j (ljForceOn par c.cutoffSquared (mol j) i).fin else 0).sum,
        s.acc + (js.map fun j => (ljForceOn par c.cutoffSquared i (mol j)).fin).sum,
        s.sums + (js.map fun j => ljShare par c.cutoffSquared i (mol j) + if both then ljShare par c.cutoffSquared (mol j) i else 0).sum⟩ := by
  induction js with
  | nil => intro s _; simp
  | cons j js ih =>
    intro s hd
    rw [List.foldl_cons, ih _ (fun x hx => hd x (List.mem_cons_of_mem _ hx)), ljInner_eq h hs write both s hi (hd j List.mem_cons_self)]
    simp only [List.map_cons, List.sum_cons, add_assoc]

/-- Both directions between `i` and each of `js`. -/
def bothWays (i : Nat) (js : List Nat) : List (Nat × Nat) := js.flatMap fun j => [(i, j), (j, i)]

theorem single_sum {P M X : Type} [DecidableEq P] [AddCommMonoid M] (i : P) (f : X → M) (l : List X) :
    (l.map fun x => (Pi.single i (f x) : P → M)).sum = Pi.single i (l.map f).sum := by
  induction l with
  | nil => simp
  | cons x l ih => simp only [List.map_cons, List.sum_cons, ih, Pi.single_add]

theorem state_sum {P X : Type} (f : X → P → V3 (Num K)) (g : X → LJGlobals K) (l : List X) :
    (l.map fun x => (⟨f x, g x⟩ : LJState P K)).sum = ⟨(l.map f).sum, (l.map g).sum⟩ := by
  induction l with
  | nil => rfl
  | cons x l ih => simp only [List.map_cons, List.sum_cons, ih]; rfl

theorem pairEvents_sum {mol : Nat → Mol K} (i : Nat) (js : List Nat) :
    ((bothWays i js).map (ljEvent par c.cutoffSquared mol)).sum =
    ⟨(js.map fun j => (Pi.single j (ljForceOn par c.cutoffSquared (mol j) (mol i)).fin : Nat → V3 (Num K))).sum +
        Pi.single i (js.map fun j => (ljForceOn par c.cutoffSquared (mol i) (mol j)).fin).sum,
      (js.map fun j => ljShare par c.cutoffSquared (mol i) (mol j) + ljShare par c.cutoffSquared (mol j) (mol i)).sum⟩ := by
  induction js with
  | nil => simp [bothWays]; rfl
  | cons j js ih =>
    have e : bothWays i (j :: js) = (i, j) :: (j, i) :: bothWays i js := rfl
    rw [e, List.map_cons, List.map_cons, List.sum_cons, List.sum_cons, ih]
    refine LJState.ext' ?_ ?_
    · simp only [LJState.add_force, ljEvent, List.map_cons, List.sum_cons, Pi.single_add]
      abel
    · simp only [LJState.add_globals, ljEvent, List.map_cons, List.sum_cons]
      abel

theorem ljSingleOuter_eq (h : SetUp c par) (hs : par.Symmetric) {mol : Nat → Mol K} {n i : Nat} (s : ForceArr K × LJGlobals K)
    (hd : ∀ j, i < j → j < n → (mol i).own ≠ .dummy → (mol i).pos ≠ (mol j).pos) :
    (⟨(ljSingleOuter c mol n s i).1, (ljSingleOuter c mol n s i).2⟩ : LJState Nat K) =
      ⟨s.1, s.2⟩ + ((bothWays i (List.range' (i + 1) (n - (i + 1)))).map (ljEvent par c.cutoffSquared mol)).sum := by
  unfold ljSingleOuter
  by_cases hi : (mol i).own = .dummy
  · rw [if_pos hi]
    have : ((bothWays i (List.range' (i + 1) (n - (i + 1)))).map (ljEvent par c.cutoffSquared mol)).sum = 0 := by
      refine List.sum_eq_zero ?_
      intro x hx
      obtain ⟨t, ht, rfl⟩ := List.mem_map.1 hx
      unfold bothWays at ht
      obtain ⟨j, -, ht⟩ := List.mem_flatMap.1 ht
      simp only [List.mem_cons, List.not_mem_nil, or_false] at ht
      rcases ht with rfl | rfl
      · exact ljEvent_zero (fun h' => h'.1 hi)
      · exact ljEvent_zero (fun h' => h'.2.1 hi)
    rw [this, add_zero]
  · rw [if_neg hi, ljInner_fold h hs true true hi _ _ (fun j hj => by
      rw [List.mem_range'_1] at hj
      exact hd j (by omega) (by omega) hi), pairEvents_sum]
    simp only [if_true]
    refine LJState.ext' ?_ ?_
    · simp only [LJState.add_force]
      rw [update_add]
      simp only [zero_add, add_assoc]
    · simp only [LJState.add_globals]

/-- All pairs of indices below `n`, in the order of the loops. -/
def allBothWays (n : Nat) : List (Nat × Nat) := (List.range n).flatMap fun i => bothWays i (List.range' (i + 1) (n - (i + 1)))

theorem sum_flatMap {X Y M : Type} [AddCommMonoid M] (l : List X) (f : X → List Y) (g : Y → M) :
    ((l.flatMap f).map g).sum = (l.map fun x => ((f x).map g).sum).sum := by
  induction l with
  | nil => rfl
  | cons x l ih => rw [List.flatMap_cons, List.map_append, List.sum_append, ih, List.map_cons, List.sum_cons]

theorem ljSingle_fold (h : SetUp c par) (hs : par.Symmetric) {mol : Nat → Mol K} {n : Nat} (is : List Nat) :
    ∀ s : ForceArr K × LJGlobals K, (∀ i ∈ is, ∀ j, i < j → j < n → (mol i).own ≠ .dummy → (mol i).pos ≠ (mol j).pos) →
    (⟨(is.foldl (ljSingleOuter c mol n) s).1, (is.foldl (ljSingleOuter c mol n) s).2⟩ : LJState Nat K) =
      ⟨s.1, s.2⟩ + ((is.flatMap fun i => bothWays i (List.range' (i + 1) (n - (i + 1)))).map (ljEvent par c.cutoffSquared mol)).sum := by
  induction is with
  | nil => intro s _; simp
  | cons i is ih =>
    intro s hd
    rw [List.foldl_cons, ih _ (fun x hx => hd x (List.mem_cons_of_mem _ hx)), ljSingleOuter_eq h hs s (hd i List.mem_cons_self),
      List.flatMap_cons, List.map_append, List.sum_append, add_assoc]

/-- `SoAFunctorSingle` adds both directions of every pair. -/
theorem ljSoASingle_eq (h : SetUp c par) (hs : par.Symmetric) {mol : Nat → Mol K} {n : Nat} (F : ForceArr K) (g : LJGlobals K)
    (hd : ∀ i j, i < j → j < n → (mol i).own ≠ .dummy → (mol i).pos ≠ (mol j).pos) :
    (⟨(ljSoASingle c mol n F g).1, (ljSoASingle c mol n F g).2⟩ : LJState Nat K) =
      ⟨F, g⟩ + ((allBothWays n).map (ljEvent par c.cutoffSquared mol)).sum := by
  unfold ljSoASingle
  by_cases h0 : n = 0
  · subst h0; rw [if_pos rfl]; simp [allBothWays]
  · rw [if_neg h0]
    simp only [LJGlobals.plus_eq]
    have e := ljSingle_fold h hs (mol := mol) (n := n) (List.range n) (F, .zero) (fun i _ => hd i)
    have e1 := congrArg LJState.force e
    have e2 := congrArg LJState.globals e
    simp only [LJState.add_force, LJState.add_globals] at e1 e2
    refine LJState.ext' ?_ ?_
    · simp only [LJState.add_force]; exact e1
    · simp only [LJState.add_globals]
      have e2' : ((List.range n).foldl (ljSingleOuter c mol n) (F, .zero)).2 = _ := e2
      rw [e2', LJGlobals.zero_eq, zero_add]
      rfl

/-- Both arrays of `SoAFunctorPair` in one memory. -/
theorem ljPairOuter_eq (h : SetUp c par) (hs : par.Symmetric) (newton3 : Bool) {mol₁ mol₂ : Nat → Mol K} {n₂ i : Nat}
    (s : (ForceArr K × ForceArr K) × LJGlobals K)
    (hd : ∀ j, j < n₂ → (mol₁ i).own ≠ .dummy → (mol₁ i).pos ≠ (mol₂ j).pos) :
    (ljPairOuter c newton3 mol₁ mol₂ n₂ s i).1.1 =
        s.1.1 + Pi.single i ((List.range n₂).map fun j => (ljForceOn par c.cutoffSquared (mol₁ i) (mol₂ j)).fin).sum ∧
    (ljPairOuter c newton3 mol₁ mol₂ n₂ s i).1.2 =
        s.1.2 + ((List.range n₂).map fun j => if newton3 then
          (Pi.single j (ljForceOn par c.cutoffSquared (mol₂ j) (mol₁ i)).fin : Nat → V3 (Num K)) else 0).sum ∧
    (ljPairOuter c newton3 mol₁ mol₂ n₂ s i).2 =
        s.2 + ((List.range n₂).map fun j => ljShare par c.cutoffSquared (mol₁ i) (mol₂ j) +
          if newton3 then ljShare par c.cutoffSquared (mol₂ j) (mol₁ i) else 0).sum := by
  unfold ljPairOuter
  by_cases hi : (mol₁ i).own = .dummy
  · rw [if_pos hi]
    have z1 : ∀ j, ljForceOn par c.cutoffSquared (mol₁ i) (mol₂ j) = 0 := fun j => if_neg (fun h' => h'.1 hi)
    have z2 : ∀ j, ljForceOn par c.cutoffSquared (mol₂ j) (mol₁ i) = 0 := fun j => if_neg (fun h' => h'.2.1 hi)
    have z3 : ∀ j, ljShare par c.cutoffSquared (mol₁ i) (mol₂ j) = 0 := fun j => ljShare_zero (fun h' => h'.1 hi)
    have z4 : ∀ j, ljShare par c.cutoffSquared (mol₂ j) (mol₁ i) = 0 := fun j => ljShare_zero (fun h' => h'.2.1 hi)
    simp [z1, z2, z3, z4, V3.fin_zero]
  · rw [if_neg hi]
    simp only [ljInner_fold h hs newton3 newton3 hi _ _ (fun j hj => hd j (List.mem_range.1 hj) hi)]
    refine ⟨?_, trivial, trivial⟩
    rw [update_add, zero_add]

end
end Verif

namespace Verif
open Spec
section
variable {K : Type} [Field K] [LinearOrder K] [IsStrictOrderedRing K]
variable {c : LJCfg K} {par : LJParams K}

/-- What a loop over the neighbours `js` of particle `i` adds to its variables. -/
def listSum (par : LJParams K) (rc2 : K) (newton3 : Bool) (i : Mol K) (mol : Nat → Mol K) (s : LJInner K) (js : List Nat) : LJInner K :=
  ⟨s.force + (js.map fun j => if newton3 then Pi.single j (ljForceOn par rc2 (mol j) i).fin else 0).sum,
    s.acc + (js.map fun j => (ljForceOn par rc2 i (mol j)).fin).sum,
    s.sums + (js.map fun j => ljShare par rc2 i (mol j) + if newton3 then ljShare par rc2 (mol j) i else 0).sum⟩

theorem listSum_append {rc2 : K} {newton3 : Bool} {i : Mol K} {mol : Nat → Mol K} (s : LJInner K) (a b : List Nat) :
    listSum par rc2 newton3 i mol (listSum par rc2 newton3 i mol s a) b = listSum par rc2 newton3 i mol s (a ++ b) := by
  unfold listSum
  simp only [List.map_append, List.sum_append, add_assoc]

theorem scatter_eq (h : SetUp c par) (hs : par.Symmetric) {i : Mol K} {mol : Nat → Mol K} (hi : i.own ≠ .dummy) (js : List Nat) :
    ∀ F : ForceArr K, (∀ j ∈ js, i.pos ≠ (mol j).pos) →
    js.foldl (fun (F : ForceArr K) j => Function.update F j (F j - (ljKernelSoA c i (mol j)).1)) F =
      F + (js.map fun j => (Pi.single j (ljForceOn par c.cutoffSquared (mol j) i).fin : Nat → V3 (Num K))).sum := by
  induction js with
  | nil => intro F _; simp
  | cons j js ih =>
    intro F hd
    rw [List.foldl_cons, ih _ (fun x hx => hd x (List.mem_cons_of_mem _ hx))]
    rw [kernelSoA_eq h hi (hd j List.mem_cons_self), List.map_cons, List.sum_cons, ← add_assoc]
    congr 1
    rw [← update_add, forceOn_swap hs _ i (mol j), V3.fin_neg]
    rfl

theorem ljVerletBlock_eq (h : SetUp c par) (hs : par.Symmetric) (newton3 : Bool) {first : Nat} {mol : Nat → Mol K}
    (hi : (mol first).own ≠ .dummy) (s : LJInner K) (block : List Nat) (hd : ∀ j ∈ block, (mol first).pos ≠ (mol j).pos) :
    ljVerletBlock c newton3 first mol s block = listSum par c.cutoffSquared newton3 (mol first) mol s block := by
  unfold ljVerletBlock
  simp only [ljInner_fold h hs false newton3 hi block s hd, listSum]
  congr 1
  cases newton3
  · simp
  · simp only [if_true, Bool.false_eq_true, if_false]
    rw [scatter_eq h hs hi block _ hd]
    simp

theorem ljVerletBlocks_eq (h : SetUp c par) (hs : par.Symmetric) (newton3 : Bool) (vecsize : Nat) {first : Nat} {mol : Nat → Mol K}
    (hi : (mol first).own ≠ .dummy) : ∀ (n : Nat) (list : List Nat), list.length ≤ n → ∀ (s : LJInner K),
    (∀ j ∈ list, (mol first).pos ≠ (mol j).pos) →
    ∃ a b, list = a ++ b ∧ ljVerletBlocks c newton3 vecsize first mol s list = (listSum par c.cutoffSquared newton3 (mol first) mol s a, b) := by
  intro n
  induction n with
  | zero =>
    intro list hl s _
    refine ⟨[], list, rfl, ?_⟩
    unfold ljVerletBlocks
    rw [dif_neg (by omega)]
    simp [listSum]
  | succ n ih =>
    intro list hl s hd
    unfold ljVerletBlocks
    by_cases hv : 0 < vecsize ∧ vecsize ≤ list.length
    · rw [dif_pos hv, ljVerletBlock_eq h hs newton3 hi s _ (fun j hj => hd j (List.mem_of_mem_take hj))]
      obtain ⟨a, b, e1, e2⟩ := ih (list.drop vecsize) (by rw [List.length_drop]; omega)
        (listSum par c.cutoffSquared newton3 (mol first) mol s (list.take vecsize)) (fun j hj => hd j (List.mem_of_mem_drop hj))
      refine ⟨list.take vecsize ++ a, b, ?_, ?_⟩
      · rw [List.append_assoc, ← e1, List.take_append_drop]
      · rw [e2, listSum_append]
    · rw [dif_neg hv]
      exact ⟨[], list, rfl, by simp [listSum]⟩

theorem ljVerletRest_eq (h : SetUp c par) (hs : par.Symmetric) (newton3 : Bool) {first : Nat} {mol : Nat → Mol K}
    (hi : (mol first).own ≠ .dummy) (js : List Nat) : ∀ s : LJInner K, (∀ j ∈ js, (mol first).pos ≠ (mol j).pos) →
    js.foldl (ljVerletRest c newton3 first mol) s = listSum par c.cutoffSquared newton3 (mol first) mol s js := by
  induction js with
  | nil => intro s _; simp [listSum]
  | cons j js ih =>
    intro s hd
    have hdj := hd j List.mem_cons_self
    have e : ljVerletRest c newton3 first mol s j = listSum par c.cutoffSquared newton3 (mol first) mol s [j] := by
      by_cases hI : Interact c.cutoffSquared (mol first) (mol j)
      · unfold ljVerletRest
        rw [if_neg (fun h' => hdj (by rw [h'])), if_neg hI.2.1]
        simp only [prod_normSq]
        rw [if_neg (not_lt.2 hI.2.2)]
        simp only [kernelAoS_eq h hI hdj, V3.fin_x, V3.fin_y, V3.fin_z]
        rw [LJGlobals.plus_eq]
        have e := energyFactor_share (c := c) hs newton3 (mol first) (mol j)
        rw [e]
        unfold listSum
        simp only [List.map_cons, List.map_nil, List.sum_cons, List.sum_nil, add_zero]
        congr 1
        cases newton3
        · simp
        · simp only [if_true]
          rw [← update_add, forceOn_swap hs _ (mol first) (mol j), V3.fin_neg]
          rfl
      · have hz : ljVerletRest c newton3 first mol s j = s := by
          unfold ljVerletRest
          by_cases h1 : first = j
          · rw [if_pos h1]
          · rw [if_neg h1]
            by_cases h2 : (mol j).own = .dummy
            · rw [if_pos h2]
            · rw [if_neg h2]
              simp only [prod_normSq]
              rw [if_pos]
              by_contra hc
              exact hI ⟨hi, h2, not_lt.1 hc⟩
        have hI' : ¬ Interact c.cutoffSquared (mol j) (mol first) := fun h' => hI (interact_comm.1 h')
        rw [hz]
        unfold listSum
        have f1 : ljForceOn par c.cutoffSquared (mol first) (mol j) = 0 := if_neg hI
        have f2 : ljForceOn par c.cutoffSquared (mol j) (mol first) = 0 := if_neg hI'
        simp [f1, f2, ljShare_zero hI, ljShare_zero hI', V3.fin_zero]
    rw [List.foldl_cons, e, ih _ (fun x hx => hd x (List.mem_cons_of_mem _ hx)), listSum_append]
    rfl

/-- `SoAFunctorVerlet` adds the interactions with the particles of the list. -/
theorem ljSoAVerlet_eq (h : SetUp c par) (hs : par.Symmetric) (newton3 : Bool) (vecsize : Nat) {mol : Nat → Mol K} {n first : Nat}
    (hn : first < n) (list : List Nat) (F : ForceArr K) (g : LJGlobals K)
    (hd : ∀ j ∈ list, (mol first).own ≠ .dummy → (mol first).pos ≠ (mol j).pos) :
    (⟨(ljSoAVerlet c newton3 vecsize mol n first list F g).1, (ljSoAVerlet c newton3 vecsize mol n first list F g).2⟩ : LJState Nat K) =
      ⟨F, g⟩ + ((contributions (list.map fun j => (⟨first, j, newton3⟩ : PairCall Nat))).map (ljEvent par c.cutoffSquared mol)).sum := by
  have key : ((contributions (list.map fun j => (⟨first, j, newton3⟩ : PairCall Nat))).map (ljEvent par c.cutoffSquared mol)).sum =
      ⟨(list.map fun j => if newton3 then (Pi.single j (ljForceOn par c.cutoffSquared (mol j) (mol first)).fin : Nat → V3 (Num K)) else 0).sum +
        Pi.single first (list.map fun j => (ljForceOn par c.cutoffSquared (mol first) (mol j)).fin).sum,
      (list.map fun j => ljShare par c.cutoffSquared (mol first) (mol j) +
        if newton3 then ljShare par c.cutoffSquared (mol j) (mol first) else 0).sum⟩ := by
    clear hd
    induction list with
    | nil => simp [contributions]; rfl
    | cons j list ih =>
      rw [List.map_cons, contributions_cons, List.map_append, List.sum_append, ih]
      refine LJState.ext' ?_ ?_
      · cases newton3
        · simp only [contributions, ljEvent, List.flatMap_cons, List.flatMap_nil, List.map_cons, List.map_nil, List.sum_cons, List.sum_nil,
            Bool.false_eq_true, if_false, add_zero, List.append_nil, LJState.add_force, Pi.single_add]
          abel
        · simp only [contributions, ljEvent, List.flatMap_cons, List.flatMap_nil, List.map_cons, List.map_nil, List.sum_cons, List.sum_nil,
            if_true, add_zero, List.append_nil, LJState.add_force, Pi.single_add]
          abel
      · cases newton3 <;>
          simp [contributions, ljEvent, add_assoc]
  rw [key]
  unfold ljSoAVerlet
  by_cases h0 : n = 0 ∨ list = []
  · rcases h0 with h0 | h0
    · omega
    · subst h0
      rw [if_pos (.inr rfl)]
      simp only [List.map_nil, List.sum_nil, Pi.single_zero, add_zero]
      exact (add_zero _).symm
  · rw [if_neg h0]
    by_cases hi : (mol first).own = .dummy
    · rw [if_pos hi]
      have z1 : ∀ j, ljForceOn par c.cutoffSquared (mol first) (mol j) = 0 := fun j => if_neg (fun h' => h'.1 hi)
      have z2 : ∀ j, ljForceOn par c.cutoffSquared (mol j) (mol first) = 0 := fun j => if_neg (fun h' => h'.2.1 hi)
      have z3 : ∀ j, ljShare par c.cutoffSquared (mol first) (mol j) = 0 := fun j => ljShare_zero (fun h' => h'.1 hi)
      have z4 : ∀ j, ljShare par c.cutoffSquared (mol j) (mol first) = 0 := fun j => ljShare_zero (fun h' => h'.2.1 hi)
      simp only [z1, z2, z3, z4, V3.fin_zero]
      refine LJState.ext' ?_ ?_ <;> simp
    · rw [if_neg hi]
      obtain ⟨a, b, e1, e2⟩ := ljVerletBlocks_eq h hs newton3 vecsize hi list.length list le_rfl ⟨F, 0, .zero⟩ (fun j hj => hd j hj hi)
      simp only [e2]
      rw [ljVerletRest_eq h hs newton3 hi b _ (fun j hj => hd j (by rw [e1]; exact List.mem_append_right _ hj) hi), listSum_append, ← e1]
      have hif : ∀ (G : ForceArr K) (x : V3 (Num K)), (if x ≠ 0 then Function.update G first (G first + x) else G) =
          G + Pi.single first x := by
        intro G x
        by_cases hx : x = 0
        · rw [if_neg (fun h' => h' hx), hx]; simp
        · rw [if_pos hx, update_add]
      rw [hif]
      refine LJState.ext' ?_ ?_
      · simp only [listSum, LJState.add_force, zero_add, add_assoc]
      · simp only [LJGlobals.plus_eq, listSum, LJState.add_globals, LJGlobals.zero_eq, zero_add]

end
end Verif
