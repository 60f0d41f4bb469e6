import Verif.Lemmas.VerletClusterPartition
/-!
# C68 — the distribution of clusters to threads

VerletClusterLists hands out its clusters to the threads of the traversal `vcl_c01_balanced` in ranges, such that every thread gets about the
same number of cluster pairs. However the neighbour lists are distributed, and for any number of threads: the ranges cover every owned cluster of
every tower, in order, each exactly once, and the check at the end of every thread never fails.
-/
namespace Verif

/-- C68. `first`, `tail`: the owned clusters of tower `t` are those from `first t` to before `tail t`. `pairs`: the length of the list of a
cluster. `perThread`: the target of `calculateClusterThreadPartition`. `old`: the distribution before. -/
theorem C68_thread_partition (perThread numThreads : Nat) (hT : 0 < numThreads) (old : List ClusterRange) (first tail : Nat → Nat) (numTowers : Nat)
    (pairs : Nat × Nat → Nat) :
    let owned := (List.range numTowers).flatMap fun t => (List.range' (first t) (tail t - first t)).map fun k => (t, k)
    let ranges := fillClusterRanges perThread numThreads old (owned.map fun c => (c, pairs c))
    ranges.length = numThreads ∧
    (ranges.flatMap fun r => (c01ThreadClusters first tail numTowers r).1) = owned ∧
    ∀ r ∈ ranges, (c01ThreadClusters first tail numTowers r).2 = true := by
  intro owned ranges
  have hL : owned = ownedFrom first tail 0 numTowers := by
    show _ = (List.range' 0 numTowers).flatMap _
    rw [← List.range_eq_range']; rfl
  have hnd := nodup_ownedFrom first tail 0 numTowers
  have inv := ranges_fold (perThread := perThread) (numThreads := numThreads) pairs [] owned (L := owned) rfl
    (r := ⟨vectorResize old numThreads ⟨0, 0, 0⟩, 0, 0, 0, false⟩)
    ⟨by simp [vectorResize]; omega, hT, fun k hk => absurd hk (Nat.not_lt_zero k), fun _ => ⟨rfl, by simp [rangeOffset]⟩, fun h => by cases h⟩
  have hr : ranges = fillClusterRanges perThread numThreads old (owned.map fun c => (c, pairs c)) := rfl
  unfold fillClusterRanges at hr
  simp only at hr
  revert hr inv
  generalize (owned.map fun c => (c, pairs c)).foldl (rangesStep perThread numThreads) _ = r
  generalize ranges = ranges
  intro inv hr
  obtain ⟨R, thread, toAdd, total, init⟩ := r
  obtain ⟨h1, h2, h3, h4, h5⟩ := inv
  simp only at h1 h2 h3 h4 h5 hr
  -- every range starts where the ones before end, and the ranges are as long as the list together
  have key : ranges.length = numThreads ∧ rangeOffset ranges numThreads = owned.length ∧
      ∀ k < numThreads, 0 < (ranges.getD k ⟨0, 0, 0⟩).num →
        owned[rangeOffset ranges k]? = some ((ranges.getD k ⟨0, 0, 0⟩).startTower, (ranges.getD k ⟨0, 0, 0⟩).startIndex) := by
    obtain ⟨M, hM, hMlen, hsame, hcur⟩ : ∃ M : List ClusterRange,
        (if toAdd ≠ 0 then (if init then R else R.set thread ⟨0, 0, 0⟩).modify thread fun x => { x with num := x.num + toAdd }
          else (if init then R else R.set thread ⟨0, 0, 0⟩)) = M ∧ M.length = numThreads ∧
        (∀ k < thread, M.getD k ⟨0, 0, 0⟩ = R.getD k ⟨0, 0, 0⟩) ∧
        (rangeOffset R thread + (M.getD thread ⟨0, 0, 0⟩).num = owned.length ∧ (0 < (M.getD thread ⟨0, 0, 0⟩).num →
          owned[rangeOffset R thread]? = some ((M.getD thread ⟨0, 0, 0⟩).startTower, (M.getD thread ⟨0, 0, 0⟩).startIndex))) := by
      cases init
      · obtain ⟨a, b⟩ := h4 rfl
        subst a
        refine ⟨R.set thread ⟨0, 0, 0⟩, by simp, by simp [h1], fun k hk => ?_, ?_⟩
        · rw [List.getD_eq_getElem?_getD, List.getD_eq_getElem?_getD, List.getElem?_set_ne (by omega)]
        · have e : (R.set thread ⟨0, 0, 0⟩).getD thread (⟨0, 0, 0⟩ : ClusterRange) = ⟨0, 0, 0⟩ := by
            rw [List.getD_eq_getElem?_getD, List.getElem?_set_self (by omega)]; rfl
          rw [e]
          exact ⟨by simpa using b, fun h => by simp at h⟩
      · obtain ⟨a, b⟩ := h5 rfl
        by_cases ht : toAdd = 0
        · subst ht
          exact ⟨R, by simp, h1, fun _ _ => rfl, by omega, fun _ => a⟩
        · refine ⟨R.modify thread fun x => { x with num := x.num + toAdd }, by simp [ht], by simp [h1], fun k hk => ?_, ?_⟩
          · rw [List.getD_eq_getElem?_getD, List.getD_eq_getElem?_getD, List.getElem?_modify]
            simp [show ¬ thread = k by omega]
          · have e : (R.modify thread fun x => { x with num := x.num + toAdd }).getD thread (⟨0, 0, 0⟩ : ClusterRange) =
                { R.getD thread ⟨0, 0, 0⟩ with num := (R.getD thread ⟨0, 0, 0⟩).num + toAdd } := by
              rw [List.getD_eq_getElem?_getD, List.getD_eq_getElem?_getD, List.getElem?_modify,
                List.getElem?_eq_getElem (by omega)]
              simp
            rw [e]
            exact ⟨by simp only; omega, fun _ => a⟩
    rw [hM] at hr
    have hlen : ranges.length = numThreads := by rw [hr]; simp [hMlen]
    have hget : ∀ k < numThreads, ranges.getD k ⟨0, 0, 0⟩ = if thread < k then ⟨0, 0, 0⟩ else M.getD k ⟨0, 0, 0⟩ := by
      intro k hk
      rw [List.getD_eq_getElem _ _ (by omega)]
      simp only [hr, List.getElem_map, List.getElem_range]
    have hlow : ∀ k < thread, ranges.getD k ⟨0, 0, 0⟩ = R.getD k ⟨0, 0, 0⟩ := by
      intro k hk
      rw [hget k (by omega), if_neg (by omega), hsame k hk]
    have hoff : ∀ k ≤ thread, rangeOffset ranges k = rangeOffset R k :=
      fun k hk => rangeOffset_congr (by omega) (fun i hi => hlow i (by omega))
    have hcurr : ranges.getD thread ⟨0, 0, 0⟩ = M.getD thread ⟨0, 0, 0⟩ := by rw [hget thread h2, if_neg (by omega)]
    refine ⟨hlen, ?_, ?_⟩
    · have : ∀ d, thread + 1 + d ≤ numThreads → rangeOffset ranges (thread + 1 + d) = owned.length := by
        intro d
        induction d with
        | zero =>
          intro _
          rw [Nat.add_zero, rangeOffset_succ (by omega), hoff thread (le_refl _), hcurr, hcur.1]
        | succ d ih =>
          intro hd
          rw [show thread + 1 + (d + 1) = thread + 1 + d + 1 by omega, rangeOffset_succ (by omega), ih (by omega), hget _ (by omega),
            if_pos (by omega)]
          rfl
      have := this (numThreads - (thread + 1)) (by omega)
      rwa [show thread + 1 + (numThreads - (thread + 1)) = numThreads by omega] at this
    · intro k hk hpos
      rcases Nat.lt_trichotomy k thread with h | h | h
      · rw [hlow k h] at hpos ⊢
        rw [hoff k (by omega)]
        exact h3 k h hpos
      · subst h
        rw [hcurr] at hpos ⊢
        rw [hoff k (le_refl _)]
        exact hcur.2 hpos
      · rw [hget k hk, if_pos h] at hpos
        simp at hpos
  obtain ⟨k1, k2, k3⟩ := key
  have hsegs : ∀ k < numThreads, (c01ThreadClusters first tail numTowers (ranges.getD k ⟨0, 0, 0⟩)).1 =
      (owned.drop (rangeOffset ranges k)).take (ranges.getD k ⟨0, 0, 0⟩).num := by
    intro k hk
    rw [hL] at k3 ⊢
    exact c01ThreadClusters_eq (k3 k hk)
  have hmono : ∀ k, k ≤ numThreads → rangeOffset ranges k ≤ owned.length := by
    have : ∀ d k, k + d = numThreads → rangeOffset ranges k ≤ owned.length := by
      intro d
      induction d with
      | zero => intro k hk; rw [show k = numThreads by omega, k2]
      | succ d ih =>
        intro k hk
        have := ih (k + 1) (by omega)
        rw [rangeOffset_succ (by omega)] at this
        omega
    intro k hk
    exact this (numThreads - k) k (by omega)
  refine ⟨k1, ?_, ?_⟩
  · have e : ranges = (List.range numThreads).map fun k => ranges.getD k ⟨0, 0, 0⟩ := by
      apply List.ext_getElem
      · simp [k1]
      · intro i hi1 hi2
        rw [List.getElem_map, List.getElem_range, List.getD_eq_getElem _ _ hi1]
    conv_lhs => rw [e]
    rw [List.flatMap_map, List.flatMap_congr (fun k hk => hsegs k (List.mem_range.1 hk)), segments_take ranges numThreads (by omega), k2,
      List.take_length]
  · intro r hrm
    obtain ⟨k, hk, rfl⟩ := List.mem_iff_getElem.1 hrm
    have h := hsegs k (by omega)
    rw [List.getD_eq_getElem _ _ hk] at h
    have hle := hmono (k + 1) (by omega)
    rw [rangeOffset_succ (by omega), List.getD_eq_getElem _ _ hk] at hle
    have : (c01ThreadClusters first tail numTowers ranges[k]).2 =
        decide ((c01ThreadClusters first tail numTowers ranges[k]).1.length = ranges[k].num) := rfl
    rw [this, h, decide_eq_true_eq, List.length_take, List.length_drop]
    omega

/-- Three towers, the middle one without owned clusters, 5 owned clusters for 4 threads: the last thread has nothing to do. -/
example : (fillClusterRanges 3 4 [⟨7, 7, 7⟩] [((0, 1), 2), ((0, 2), 4), ((2, 0), 1), ((2, 1), 0), ((2, 2), 3)]).map
    (fun r => (c01ThreadClusters (fun t => if t = 0 then 1 else 0) (fun t => if t = 1 then 0 else 3) 3 r).1) =
    [[(0, 1), (0, 2)], [(2, 0)], [(2, 1), (2, 2)], []] := by decide +kernel

end Verif
