import Verif.Model.VerletClusterLists
import Mathlib.Tactic.Linarith
/-!
C62: the buffer of neighbour lists. Every list that is handed out should be an empty list of the buffer, different from all lists handed out
since the last `clear()`. This fails: `C62_violated`. What holds is `C62_capacity`: it works up to a number of lists that depends on the
size the buffer had before, and then fails. VerletClusterLists stays below that number: `C62_cluster_lists_partial`.
-/
namespace Verif
section
variable {V : Type}

private theorem length_vectorResize {α : Type} (l : List α) (n : Nat) (x : α) : (vectorResize l n x).length = n := by
  unfold vectorResize
  simp only [List.length_append, List.length_take, List.length_replicate]
  omega

/-- Number of lists after the first request following `clear()`. -/
def NLBuffer.grown (b : NLBuffer V) : Nat := max 10 ⌊(b.lists.length : Rat) * b.growth⌋.toNat

private theorem getMany_from (b : NLBuffer V) (k : Nat) (hl : b.last = some k) (hk : k < b.lists.length) (n : Nat) :
    if k + 1 + n ≤ b.lists.length then
      ∃ b', b.getMany n = some (List.range' (k + 1) n, b') ∧ b'.lists.length = b.lists.length ∧
        (∀ j, j ≤ k → b'.lists[j]? = b.lists[j]?) ∧ ∀ j ∈ List.range' (k + 1) n, b'.lists[j]? = some []
    else b.getMany n = none := by
  induction n generalizing b k with
  | zero =>
    rw [if_pos (by omega)]
    exact ⟨b, rfl, rfl, fun _ _ => rfl, by simp⟩
  | succ n ih =>
    have hns : ¬ k ≥ b.lists.length := by omega
    by_cases hin : k + 1 < b.lists.length
    · have hnew : b.getNew = some (k + 1, { b with lists := b.lists.set (k + 1) [], last := some (k + 1) }) := by
        unfold NLBuffer.getNew
        simp only [hl, hns, decide_false, Bool.false_eq_true, if_false]
        rw [if_pos hin]
      have := ih { b with lists := b.lists.set (k + 1) [], last := some (k + 1) } (k + 1) rfl (by simpa using hin)
      simp only [List.length_set] at this
      unfold NLBuffer.getMany
      rw [hnew]
      simp only
      by_cases hle : k + 1 + (n + 1) ≤ b.lists.length
      · rw [if_pos (by omega)] at this ⊢
        obtain ⟨b', e1, e2, e3, e4⟩ := this
        rw [e1]
        refine ⟨b', rfl, e2, ?_, ?_⟩
        · intro j hj
          rw [e3 j (by omega), List.getElem?_set_ne (by omega)]
        · intro j hj
          rw [List.mem_range'_1] at hj
          by_cases hjk : j = k + 1
          · subst hjk
            rw [e3 _ le_rfl, List.getElem?_set_self hin]
          · exact e4 j (by rw [List.mem_range'_1]; omega)
      · rw [if_neg (by omega)] at this ⊢
        rw [this]
    · rw [if_neg (by omega)]
      unfold NLBuffer.getMany NLBuffer.getNew
      simp only [hl, hns, decide_false, Bool.false_eq_true, if_false]
      rw [if_neg hin]

/-- After `clear()` (or on a new buffer), `n` requests succeed if and only if there are no more than `max 10 ⌊size * growth⌋`: then they
return `0, ..., n - 1`, and all these lists exist and are empty. One request more reads out of range. -/
theorem C62_capacity (b : NLBuffer V) (hb : b.last = none) (n : Nat) :
    if n ≤ b.grown then
      ∃ b', b.getMany n = some (List.range n, b') ∧ ∀ k ∈ List.range n, b'.lists[k]? = some []
    else b.getMany n = none := by
  have h10 : 10 ≤ b.grown := le_max_left _ _
  cases n with
  | zero => rw [if_pos (by omega)]; exact ⟨b, rfl, by simp⟩
  | succ n =>
    have hlen : (vectorResize b.lists b.grown b.fresh).length = b.grown := length_vectorResize _ _ _
    have hnew : b.getNew = some (0, { b with lists := (vectorResize b.lists b.grown b.fresh).set 0 [], last := some 0 }) := by
      unfold NLBuffer.getNew
      simp only [hb, if_true]
      rw [if_pos (by rw [length_vectorResize]; unfold NLBuffer.grown at h10; omega)]
      rfl
    have := getMany_from { b with lists := (vectorResize b.lists b.grown b.fresh).set 0 [], last := some 0 } 0 rfl
      (by simp only [List.length_set]; omega) n
    simp only [List.length_set, hlen] at this
    unfold NLBuffer.getMany
    rw [hnew]
    simp only
    by_cases hle : n + 1 ≤ b.grown
    · rw [if_pos (by omega)] at this ⊢
      obtain ⟨b', e1, e2, e3, e4⟩ := this
      rw [e1]
      refine ⟨b', by simp [List.range_eq_range', List.range'_succ], ?_⟩
      intro k hk
      rw [List.mem_range] at hk
      by_cases h0 : k = 0
      · subst h0
        rw [e3 0 le_rfl, List.getElem?_set_self (by omega)]
      · exact e4 k (by rw [List.mem_range'_1]; omega)
    · rw [if_neg (by omega)] at this ⊢
      rw [this]

/-- C62 does not hold: on a new buffer the eleventh request returns the index of a list that does not exist, while the first ten work. -/
theorem C62_violated (fresh : List V) :
    ((NLBuffer.new fresh).getMany 10).isSome = true ∧ (NLBuffer.new fresh).getMany 11 = none := by
  have hg : (NLBuffer.new fresh).grown = 10 := by
    unfold NLBuffer.grown NLBuffer.new
    simp
  have h1 := C62_capacity (NLBuffer.new fresh) rfl 10
  have h2 := C62_capacity (NLBuffer.new fresh) rfl 11
  rw [hg] at h1 h2
  rw [if_pos (by omega)] at h1
  rw [if_neg (by omega)] at h2
  obtain ⟨b', e, -⟩ := h1
  exact ⟨by rw [e]; rfl, h2⟩

/-- The same happens later for any size and any growth: there always is a number of requests after which the next one fails. -/
theorem C62_always_exhausted (b : NLBuffer V) (hb : b.last = none) : ∃ n, (b.getMany n).isSome = true ∧ b.getMany (n + 1) = none := by
  refine ⟨b.grown, ?_, ?_⟩
  · have := C62_capacity b hb b.grown
    rw [if_pos le_rfl] at this
    obtain ⟨b', e, -⟩ := this
    rw [e]; rfl
  · have := C62_capacity b hb (b.grown + 1)
    rwa [if_neg (by omega)] at this

end

section
variable {P V : Type}

theorem vclNumClusters_eq (clusterSize : Nat) (hc : 0 < clusterSize) (tower : List P) :
    vclNumClusters clusterSize tower = (tower.length + (clusterSize - 1)) / clusterSize := by
  unfold vclNumClusters vclStorage vclPadding
  simp only [List.length_append, List.length_map, List.length_replicate]
  have hm := Nat.div_add_mod tower.length clusterSize
  have hlt := Nat.mod_lt tower.length hc
  set q := tower.length / clusterSize
  set r := tower.length % clusterSize
  by_cases hr : r = 0
  · rw [if_pos hr]
    rw [show tower.length + 0 = clusterSize * q by omega, show tower.length + (clusterSize - 1) = clusterSize * q + (clusterSize - 1) by omega,
      Nat.mul_div_cancel_left _ hc, Nat.mul_add_div hc, Nat.div_eq_of_lt (by omega)]
    omega
  · rw [if_neg hr]
    rw [show tower.length + (clusterSize - r) = clusterSize * (q + 1) by rw [Nat.mul_add]; omega,
      show tower.length + (clusterSize - 1) = clusterSize * (q + 1) + (r - 1) by rw [Nat.mul_add]; omega,
      Nat.mul_div_cancel_left _ hc, Nat.mul_add_div hc, Nat.div_eq_of_lt (by omega)]

/-- VerletClusterLists reserves `numParticles / clusterSize + numTowers` lists
(/repo/src/autopas/containers/verletClusterLists/VerletClusterListsRebuilder.h:127), which is at least the number of clusters. -/
theorem C62_reserved_enough (clusterSize : Nat) (hc : 0 < clusterSize) (towers : List (List P)) :
    (towers.map (vclNumClusters clusterSize)).sum ≤ towers.flatten.length / clusterSize + towers.length := by
  induction towers with
  | nil => simp
  | cons t ts ih =>
    simp only [List.map_cons, List.sum_cons, List.flatten_cons, List.length_append, List.length_cons]
    rw [vclNumClusters_eq _ hc]
    have h1 : t.length / clusterSize + ts.flatten.length / clusterSize ≤ (t.length + ts.flatten.length) / clusterSize := Nat.div_add_div_le_add_div
    have h2 : (t.length + (clusterSize - 1)) / clusterSize ≤ t.length / clusterSize + 1 := by
      rw [← Nat.add_div_right _ hc]
      exact Nat.div_le_div_right (by omega)
    omega

/-- C62 for VerletClusterLists (VerletClusterLists.h:770, VerletClusterListsRebuilder.h:127-139): after the buffer was cleared and the
lists were reserved, one request per cluster always succeeds, whatever the buffer was used for before, as long as it does not shrink when
it is meant to grow. Missing for C62: other uses of the buffer, for which it is false. -/
theorem C62_cluster_lists_partial (b : NLBuffer V) (hg : 1 ≤ b.growth) (clusterSize : Nat) (hc : 0 < clusterSize) (towers : List (List P))
    (n : Nat) (hn : n ≤ (towers.map (vclNumClusters clusterSize)).sum) :
    ∃ b', (b.clear.reserve (towers.flatten.length / clusterSize + towers.length)).getMany n = some (List.range n, b') ∧
      ∀ k ∈ List.range n, b'.lists[k]? = some [] := by
  set m := towers.flatten.length / clusterSize + towers.length with hm
  have hle : m ≤ (b.clear.reserve m).grown := by
    unfold NLBuffer.grown NLBuffer.reserve NLBuffer.clear
    simp only [length_vectorResize]
    refine le_trans ?_ (le_max_right _ _)
    have : (m : Int) ≤ ⌊(m : Rat) * b.growth⌋ := by
      rw [Int.le_floor]
      have h0 : (0 : Rat) ≤ m := Nat.cast_nonneg m
      push_cast
      nlinarith
    omega
  have := C62_capacity (b.clear.reserve m) rfl n
  rwa [if_pos (le_trans hn ((C62_reserved_enough clusterSize hc towers).trans hle))] at this

end

/-! Non-vacuity: eleven clusters in a new buffer. -/

example : ∃ b', ((NLBuffer.new [0]).clear.reserve (22 / 2 + 1)).getMany 11 = some (List.range 11, b') ∧
    ∀ k ∈ List.range 11, b'.lists[k]? = some [] :=
  C62_cluster_lists_partial (NLBuffer.new [0]) (by norm_num [NLBuffer.new]) 2 (by norm_num) [List.range 22] 11 (by decide +kernel)

end Verif
