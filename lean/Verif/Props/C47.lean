import Verif.Model.AutoTuner
import Mathlib.Tactic.Ring
import Mathlib.Algebra.BigOperators.Group.List.Basic
/-!
# C47 — The runtime estimate is the mean over one rebuild period

For samples with and without neighbour list rebuild the evidence is the mean time of an iteration over one rebuild period of
`rebuildFrequency` iterations, of which the first rebuilds and the others do not (`period`). The representative times `b` and `n`
are chosen from the samples by the selector strategy; `Represents` says what this means for each strategy, without referring to
the code.

The English property does not mention the case without any rebuild sample. **There the code returns too small a value**
(`C47_violated_no_rebuild_sample`): it takes 0 as time of the rebuild iteration.
-/
namespace Verif

/-- Times of the iterations of one rebuild period. -/
def period (f : Nat) (b n : Int) : List Int := b :: List.replicate (f - 1) n

/-- What the selector strategies promise. -/
def Represents (s : Selector) (l : List Int) (x : Int) : Prop :=
  match s with
  | .fastestAbs => x ∈ l ∧ ∀ y ∈ l, x ≤ y
  | .fastestMean => x * l.length ≤ l.sum ∧ l.sum < (x + 1) * l.length
  | .fastestMedian => x ∈ l ∧ l.length ≤ 2 * (l.countP (· ≤ x)) ∧ l.length ≤ 2 * (l.countP (x ≤ ·))

theorem foldl_min_le (l : List Int) : ∀ a : Int, l.foldl min a ≤ a ∧ (∀ y ∈ l, l.foldl min a ≤ y) ∧
    (l.foldl min a = a ∨ l.foldl min a ∈ l) := by
  induction l with
  | nil => intro a; simp
  | cons x l ih =>
    intro a
    obtain ⟨h1, h2, h3⟩ := ih (min a x)
    simp only [List.foldl_cons]
    refine ⟨le_trans h1 (min_le_left _ _), ?_, ?_⟩
    · intro y hy
      rcases List.mem_cons.1 hy with rfl | hy
      · exact le_trans h1 (min_le_right _ _)
      · exact h2 y hy
    · rcases h3 with h3 | h3
      · rcases (show min a x = a ∨ min a x = x by omega) with h | h
        · left; rw [h3, h]
        · right; rw [h3, h]; simp
      · right; exact List.mem_cons_of_mem _ h3

theorem sum_nonneg_int : ∀ {l : List Int}, (∀ y ∈ l, 0 ≤ y) → 0 ≤ l.sum := by
  intro l
  induction l with
  | nil => simp
  | cons a l ih =>
    intro h
    rw [List.sum_cons]
    have := h a (by simp)
    have := ih (fun y hy => h y (by simp [hy]))
    omega

/-- At least `k + 1` of the elements of a sorted list are at most the element at position `k`. -/
theorem countP_sorted_le {l : List Int} (hs : l.Pairwise (· ≤ ·)) {k : Nat} (hk : k < l.length) :
    k + 1 ≤ l.countP (· ≤ l[k]) ∧ l.length - k ≤ l.countP (l[k] ≤ ·) := by
  constructor
  · have h1 : (l.take (k + 1)).countP (· ≤ l[k]) = k + 1 := by
      have : (l.take (k + 1)).countP (· ≤ l[k]) = (l.take (k + 1)).length := by
        rw [List.countP_eq_length]
        intro a ha
        obtain ⟨i, hi, rfl⟩ := List.mem_iff_getElem.1 ha
        rw [List.length_take] at hi
        rw [List.getElem_take]
        simp only [decide_eq_true_eq]
        rcases Nat.lt_or_ge i k with h | h
        · exact (List.pairwise_iff_getElem.1 hs) i k (by omega) hk h
        · have : i = k := by omega
          subst this; exact le_refl _
      rw [this, List.length_take]
      omega
    calc k + 1 = (l.take (k + 1)).countP (· ≤ l[k]) := h1.symm
      _ ≤ l.countP (· ≤ l[k]) := (List.take_sublist _ _).countP_le
  · have h1 : (l.drop k).countP (l[k] ≤ ·) = l.length - k := by
      have : (l.drop k).countP (l[k] ≤ ·) = (l.drop k).length := by
        rw [List.countP_eq_length]
        intro a ha
        obtain ⟨i, hi, rfl⟩ := List.mem_iff_getElem.1 ha
        rw [List.length_drop] at hi
        rw [List.getElem_drop]
        simp only [decide_eq_true_eq]
        rcases Nat.eq_zero_or_pos i with h | h
        · subst h; exact le_refl _
        · exact (List.pairwise_iff_getElem.1 hs) k (k + i) hk (by omega) (by omega)
      rw [this, List.length_drop]
    calc l.length - k = (l.drop k).countP (l[k] ≤ ·) := h1.symm
      _ ≤ l.countP (l[k] ≤ ·) := (List.drop_sublist _ _).countP_le

/-- Each strategy chooses what it promises (for the mean: of non-negative times). -/
theorem C47_selectors (s : Selector) {l : List Int} (hne : l ≠ []) (hpos : ∀ y ∈ l, 0 ≤ y) : Represents s l (optimumValue l s) := by
  have hie : l.isEmpty = false := by cases l <;> simp_all
  unfold optimumValue
  rw [hie]
  simp only [Bool.false_eq_true, if_false]
  cases s with
  | fastestAbs =>
    simp only [Represents]
    cases l with
    | nil => exact absurd rfl hne
    | cons a l =>
      obtain ⟨h1, h2, h3⟩ := foldl_min_le l a
      simp only [minValue]
      refine ⟨?_, ?_⟩
      · rcases h3 with h3 | h3
        · rw [h3]; simp
        · exact List.mem_cons_of_mem _ h3
      · intro y hy
        rcases List.mem_cons.1 hy with rfl | hy
        · exact h1
        · exact h2 y hy
  | fastestMean =>
    simp only [Represents, meanValue]
    have hl : (0 : Int) < l.length := by
      have : l.length ≠ 0 := by simpa using hne
      omega
    have hs := sum_nonneg_int hpos
    rw [Int.tdiv_eq_ediv_of_nonneg hs]
    constructor
    · exact Int.ediv_mul_le _ (by omega)
    · exact Int.lt_ediv_add_one_mul_self _ hl
  | fastestMedian =>
    simp only [Represents, medianValue, hie, Bool.false_eq_true, if_false]
    set m := l.mergeSort (fun a b => decide (a ≤ b)) with hm
    have hperm : m.Perm l := List.mergeSort_perm _ _
    have hlen : m.length = l.length := hperm.length_eq
    have hsort : m.Pairwise (· ≤ ·) := by
      have := List.pairwise_mergeSort (le := fun a b : Int => decide (a ≤ b)) (by intro a b c; simp; omega) (by intro a b; simp; omega) l
      rw [← hm] at this
      exact this.imp (by intro a b; simp)
    have hpos' : 0 < l.length := by
      have : l.length ≠ 0 := by simpa using hne
      omega
    have hk : (l.length - 1) / 2 < m.length := by omega
    have hget : m.getD ((l.length - 1) / 2) 0 = m[(l.length - 1) / 2] := by simp [List.getD, List.getElem?_eq_getElem hk]
    rw [hget]
    obtain ⟨c1, c2⟩ := countP_sorted_le hsort hk
    refine ⟨hperm.mem_iff.1 (List.getElem_mem _), ?_, ?_⟩
    · rw [← hperm.countP_eq]; omega
    · rw [← hperm.countP_eq]; omega

/-- **C47.** With samples of both kinds, the estimate is the mean of `period f b n`, where `b` and `n` represent the samples. -/
theorem C47_estimate_is_period_mean_partial (s : Selector) {f : Nat} (hf : 0 < f) {building notBuilding : List Int}
    (hb : building ≠ []) (hn : notBuilding ≠ []) (hposb : ∀ y ∈ building, 0 ≤ y) (hposn : ∀ y ∈ notBuilding, 0 ≤ y) :
    ∃ b n, Represents s building b ∧ Represents s notBuilding n ∧ (period f b n).length = f ∧
      estimateRuntime f s building notBuilding = (period f b n).sum.tdiv f := by
  refine ⟨_, _, C47_selectors s hb hposb, C47_selectors s hn hposn, by simp [period]; omega, ?_⟩
  have hie : notBuilding.isEmpty = false := by cases notBuilding <;> simp_all
  unfold estimateRuntime period
  simp only [hie, Bool.false_eq_true, if_false, List.sum_cons, List.sum_replicate]
  congr 2
  have : ((f - 1 : Nat) : Int) = (f : Int) - 1 := by omega
  rw [← this]
  simp

/-- If there are only rebuilding samples, all iterations of the period are taken to be rebuilding ones. -/
theorem C47_only_rebuild_samples (s : Selector) {f : Nat} (hf : 0 < f) {building : List Int} (hb : building ≠ [])
    (hpos : ∀ y ∈ building, 0 ≤ y) :
    ∃ b, Represents s building b ∧ estimateRuntime f s building [] = b := by
  refine ⟨_, C47_selectors s hb hpos, ?_⟩
  unfold estimateRuntime
  simp only [List.isEmpty_nil, if_true]
  have : optimumValue building s + ((f : Int) - 1) * optimumValue building s = optimumValue building s * f := by ring
  rw [this]
  exact Int.mul_tdiv_cancel _ (by omega)

/-- Both kinds of samples occur: -/
example : estimateRuntime 10 .fastestMean [30, 50, 40] [9, 3, 5, 5] = (period 10 40 5).sum.tdiv 10 ∧
    estimateRuntime 10 .fastestMean [30, 50, 40] [9, 3, 5, 5] = 8 := by decide +kernel

/-- **Violation**: without a rebuild sample the estimate is below every single sample. -/
theorem C47_violated_no_rebuild_sample : estimateRuntime 2 .fastestAbs [] [10, 10, 10] = 5 := by decide +kernel

end Verif
