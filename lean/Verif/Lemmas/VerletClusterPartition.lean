import Verif.Model.VerletClusterLists
import Mathlib.Data.List.Nodup
import Mathlib.Data.List.Flatten
import Mathlib.Data.List.GetD
/-! The distribution of clusters to threads. -/
namespace Verif

/-- The owned clusters of a tower, in order. -/
def ownedOfTower (first tail : Nat → Nat) (t : Nat) : List (Nat × Nat) := (List.range' (first t) (tail t - first t)).map fun k => (t, k)

/-- The owned clusters (tower, number in the tower) of the towers from `lo` on, `n` of them. -/
def ownedFrom (first tail : Nat → Nat) (lo n : Nat) : List (Nat × Nat) := (List.range' lo n).flatMap (ownedOfTower first tail)

theorem mem_ownedFrom {first tail : Nat → Nat} {lo n : Nat} {c : Nat × Nat} :
    c ∈ ownedFrom first tail lo n ↔ lo ≤ c.1 ∧ c.1 < lo + n ∧ first c.1 ≤ c.2 ∧ c.2 < tail c.1 := by
  unfold ownedFrom ownedOfTower
  simp only [List.mem_flatMap, List.mem_map, List.mem_range'_1]
  constructor
  · rintro ⟨t, ht, k, hk, rfl⟩
    refine ⟨ht.1, ht.2, hk.1, ?_⟩
    show k < tail t
    omega
  · rintro ⟨h1, h2, h3, h4⟩
    exact ⟨c.1, ⟨h1, h2⟩, c.2, ⟨h3, by omega⟩, rfl⟩

theorem nodup_ownedFrom (first tail : Nat → Nat) (lo n : Nat) : (ownedFrom first tail lo n).Nodup := by
  unfold ownedFrom
  rw [List.nodup_flatMap]
  refine ⟨fun t _ => ?_, ?_⟩
  · exact List.Nodup.map (fun a b h => (Prod.mk.inj h).2) List.nodup_range'
  · refine List.Pairwise.imp ?_ List.nodup_range'
    intro a b hab x hx hx'
    obtain ⟨_, -, rfl⟩ := List.mem_map.1 hx
    obtain ⟨_, -, e⟩ := List.mem_map.1 hx'
    exact hab (Prod.mk.inj e).1.symm

/-- What is left of the clusters from one of them on. -/
theorem drop_ownedFrom {first tail : Nat → Nat} {T i st si : Nat} (h : (ownedFrom first tail 0 T)[i]? = some (st, si)) :
    (ownedFrom first tail 0 T).drop i = (List.range' si (tail st - si)).map (fun k => (st, k)) ++ ownedFrom first tail (st + 1) (T - (st + 1)) := by
  have hi : i < (ownedFrom first tail 0 T).length := by
    by_contra hc
    rw [List.getElem?_eq_none (by omega)] at h
    cases h
  rw [List.getElem?_eq_getElem hi, Option.some.injEq] at h
  have hm := mem_ownedFrom.1 (h ▸ List.getElem_mem hi)
  obtain ⟨-, h1, h2, h3⟩ := hm
  simp only at h1 h2 h3
  have e : ownedFrom first tail 0 T = (ownedFrom first tail 0 st ++ (List.range' (first st) (si - first st)).map fun k => (st, k)) ++
      ((List.range' si (tail st - si)).map (fun k => (st, k)) ++ ownedFrom first tail (st + 1) (T - (st + 1))) := by
    have r1 : List.range' 0 T = List.range' 0 st ++ (st :: List.range' (st + 1) (T - (st + 1))) := by
      rw [← List.range'_succ, show T - (st + 1) + 1 = T - st by omega]
      have := List.range'_append_1 (s := 0) (m := st) (n := T - st)
      rw [Nat.zero_add] at this
      rw [this]
      congr 1; omega
    have r2 : List.range' (first st) (tail st - first st) = List.range' (first st) (si - first st) ++ List.range' si (tail st - si) := by
      have := List.range'_append_1 (s := first st) (m := si - first st) (n := tail st - si)
      rw [show first st + (si - first st) = si by omega] at this
      rw [this]
      congr 1; omega
    unfold ownedFrom
    rw [r1, List.flatMap_append, List.flatMap_cons, List.append_assoc]
    congr 1
    unfold ownedOfTower
    rw [r2, List.map_append, List.append_assoc]
  have hnd := nodup_ownedFrom first tail 0 T
  have hlen : i = (ownedFrom first tail 0 st ++ (List.range' (first st) (si - first st)).map fun k => (st, k)).length := by
    generalize ownedFrom first tail 0 st ++ (List.range' (first st) (si - first st)).map (fun k => (st, k)) = A at e
    have hlt : A.length < (ownedFrom first tail 0 T).length := by
      rw [e, List.length_append (as := A), List.length_append, List.length_map, List.length_range']; omega
    have : (ownedFrom first tail 0 T)[A.length] = (st, si) := by
      simp only [e]
      rw [List.getElem_append_right (le_refl _)]
      simp only [Nat.sub_self]
      rw [List.getElem_append_left (by rw [List.length_map, List.length_range']; omega)]
      simp
    exact (List.Nodup.getElem_inj_iff hnd).1 (h.trans this.symm)
  conv_lhs => rw [e, hlen]
  rw [List.drop_left]

/-- The loop over the towers, once something was visited. -/
theorem vclC01Loop (first tail : Nat → Nat) (r : ClusterRange) (lo n : Nat) (acc : List (Nat × Nat)) (h : 0 < acc.length) (hle : acc.length ≤ r.num) :
    (List.range' lo n).foldl (fun (acc : List (Nat × Nat)) tower =>
      let start := if acc.length = 0 then r.startIndex else first tower
      acc ++ ((List.range' start (tail tower - start)).take (r.num - acc.length)).map fun k => (tower, k)) acc =
    acc ++ (ownedFrom first tail lo n).take (r.num - acc.length) := by
  induction n generalizing lo acc with
  | zero => simp [ownedFrom]
  | succ n ih =>
    rw [List.range'_succ, List.foldl_cons]
    simp only
    rw [if_neg (by omega)]
    have e : ownedFrom first tail lo (n + 1) = ownedOfTower first tail lo ++ ownedFrom first tail (lo + 1) n := by
      unfold ownedFrom
      rw [List.range'_succ, List.flatMap_cons]
    rw [ih]
    · rw [e, List.take_append, List.append_assoc]
      unfold ownedOfTower
      rw [List.map_take]
      congr 2
      simp only [List.length_append, List.length_take, List.length_map, List.length_range']
      congr 1; omega
    · rw [List.length_append]; omega
    · rw [List.length_append, List.length_map, List.length_take]; omega

/-- What a thread visits, if its range starts with an owned cluster. -/
theorem c01ThreadClusters_eq {first tail : Nat → Nat} {T i : Nat} {r : ClusterRange}
    (h : 0 < r.num → (ownedFrom first tail 0 T)[i]? = some (r.startTower, r.startIndex)) :
    (c01ThreadClusters first tail T r).1 = ((ownedFrom first tail 0 T).drop i).take r.num := by
  unfold c01ThreadClusters
  simp only
  rcases Nat.eq_zero_or_pos r.num with h0 | h0
  · rw [h0, List.take_zero]
    generalize List.range' r.startTower (T - r.startTower) = l
    induction l with
    | nil => rfl
    | cons t l ih =>
      rw [List.foldl_cons]
      simpa using ih
  · have hh := h h0
    have hi : i < (ownedFrom first tail 0 T).length := by
      by_contra hc
      rw [List.getElem?_eq_none (by omega)] at hh
      cases hh
    have hm : (r.startTower, r.startIndex) ∈ ownedFrom first tail 0 T := List.mem_of_getElem? hh
    obtain ⟨-, h1, h2, h3⟩ := mem_ownedFrom.1 hm
    simp only at h1 h2 h3
    rw [drop_ownedFrom hh]
    obtain ⟨m, hm⟩ : ∃ m, T - r.startTower = m + 1 := ⟨T - r.startTower - 1, by omega⟩
    rw [hm, List.range'_succ, List.foldl_cons]
    simp only [List.length_nil, if_true, List.nil_append, Nat.sub_zero]
    rw [vclC01Loop]
    · rw [List.take_append, show T - (r.startTower + 1) = m by omega, List.map_take]
      congr 2
      simp only [List.length_take, List.length_map, List.length_range']
      omega
    · rw [List.length_map, List.length_take, List.length_range']; omega
    · rw [List.length_map, List.length_take]; omega

/-- Position of the first cluster of range `k`. -/
def rangeOffset (ranges : List ClusterRange) (k : Nat) : Nat := ((ranges.take k).map ClusterRange.num).sum

theorem rangeOffset_succ {ranges : List ClusterRange} {k : Nat} (h : k < ranges.length) :
    rangeOffset ranges (k + 1) = rangeOffset ranges k + (ranges.getD k ⟨0, 0, 0⟩).num := by
  unfold rangeOffset
  rw [List.take_succ, List.getElem?_eq_getElem h]
  simp [h]

theorem rangeOffset_congr {l l' : List ClusterRange} {k : Nat} (hl : l.length = l'.length) (h : ∀ i < k, l.getD i ⟨0, 0, 0⟩ = l'.getD i ⟨0, 0, 0⟩) :
    rangeOffset l k = rangeOffset l' k := by
  unfold rangeOffset
  congr 2
  apply List.ext_getElem
  · simp [hl]
  · intro i h1 h2
    rw [List.length_take] at h1
    have := h i (by omega)
    rw [List.getD_eq_getElem _ _ (by omega), List.getD_eq_getElem _ _ (by omega)] at this
    simpa using this

/-- The loop of `fillClusterRanges` after `n` clusters of `L`. -/
structure RangesInv (L : List (Nat × Nat)) (numThreads n : Nat) (r : RangesState) : Prop where
  len : r.ranges.length = numThreads
  thread : r.thread < numThreads
  before : ∀ k < r.thread, ∀ _ : 0 < (r.ranges.getD k ⟨0, 0, 0⟩).num, L[rangeOffset r.ranges k]? =
    some ((r.ranges.getD k ⟨0, 0, 0⟩).startTower, (r.ranges.getD k ⟨0, 0, 0⟩).startIndex)
  fresh : r.initialized = false → r.toAdd = 0 ∧ rangeOffset r.ranges r.thread = n
  current : r.initialized = true → L[rangeOffset r.ranges r.thread]? =
      some ((r.ranges.getD r.thread ⟨0, 0, 0⟩).startTower, (r.ranges.getD r.thread ⟨0, 0, 0⟩).startIndex) ∧
    rangeOffset r.ranges r.thread + (r.ranges.getD r.thread ⟨0, 0, 0⟩).num + r.toAdd = n

private theorem getD_set_ne {l : List ClusterRange} {i k : Nat} {x : ClusterRange} (h : i ≠ k) : (l.set i x).getD k ⟨0, 0, 0⟩ = l.getD k ⟨0, 0, 0⟩ := by
  rw [List.getD_eq_getElem?_getD, List.getD_eq_getElem?_getD, List.getElem?_set_ne h]

private theorem getD_set_eq {l : List ClusterRange} {i : Nat} {x : ClusterRange} (h : i < l.length) : (l.set i x).getD i ⟨0, 0, 0⟩ = x := by
  rw [List.getD_eq_getElem?_getD, List.getElem?_set_self h]; rfl

private theorem getD_modify_ne {l : List ClusterRange} {i k : Nat} {f : ClusterRange → ClusterRange} (h : i ≠ k) :
    (l.modify i f).getD k ⟨0, 0, 0⟩ = l.getD k ⟨0, 0, 0⟩ := by
  rw [List.getD_eq_getElem?_getD, List.getD_eq_getElem?_getD, List.getElem?_modify]
  simp [h]

private theorem getD_modify_eq {l : List ClusterRange} {i : Nat} {f : ClusterRange → ClusterRange} (h : i < l.length) :
    (l.modify i f).getD i ⟨0, 0, 0⟩ = f (l.getD i ⟨0, 0, 0⟩) := by
  rw [List.getD_eq_getElem?_getD, List.getD_eq_getElem?_getD, List.getElem?_modify, List.getElem?_eq_getElem h]
  simp

theorem rangesStep_inv {L : List (Nat × Nat)} {perThread numThreads n : Nat} {r : RangesState} (h : RangesInv L numThreads n r) {c : Nat × Nat}
    (hc : L[n]? = some c) (pairs : Nat) : RangesInv L numThreads (n + 1) (rangesStep perThread numThreads r (c, pairs)) := by
  obtain ⟨ranges, thread, toAdd, total, init⟩ := r
  obtain ⟨h1, h2, h3, h4, h5⟩ := h
  simp only at h1 h2 h3 h4 h5
  -- the ranges once the range of this thread has a start
  obtain ⟨R, hR, hlen, hsame, hstart, hcount⟩ : ∃ R : List ClusterRange,
      (if init then ranges else ranges.set thread ⟨c.1, c.2, 0⟩) = R ∧ R.length = numThreads ∧
      (∀ k < thread, R.getD k ⟨0, 0, 0⟩ = ranges.getD k ⟨0, 0, 0⟩) ∧
      L[rangeOffset R thread]? = some ((R.getD thread ⟨0, 0, 0⟩).startTower, (R.getD thread ⟨0, 0, 0⟩).startIndex) ∧
      rangeOffset R thread + (R.getD thread ⟨0, 0, 0⟩).num + toAdd = n := by
    cases init
    · obtain ⟨a, b⟩ := h4 rfl
      refine ⟨_, rfl, by simp [h1], fun k hk => by simp only [Bool.false_eq_true, if_false]; exact getD_set_ne (by omega), ?_, ?_⟩
      · simp only [Bool.false_eq_true, if_false]
        rw [getD_set_eq (by omega), rangeOffset_congr (l' := ranges) (by simp) (fun i hi => getD_set_ne (by omega)), b]
        exact hc
      · simp only [Bool.false_eq_true, if_false]
        rw [getD_set_eq (by omega), rangeOffset_congr (l' := ranges) (by simp) (fun i hi => getD_set_ne (by omega)), b, a]
        rfl
    · obtain ⟨a, b⟩ := h5 rfl
      exact ⟨_, rfl, h1, fun _ _ => rfl, a, b⟩
  have hbefore : ∀ k < thread, ∀ _ : 0 < (R.getD k ⟨0, 0, 0⟩).num, L[rangeOffset R k]? =
      some ((R.getD k ⟨0, 0, 0⟩).startTower, (R.getD k ⟨0, 0, 0⟩).startIndex) := by
    intro k hk hpos
    rw [hsame k hk] at hpos ⊢
    rw [rangeOffset_congr (l' := ranges) (by omega) (fun i hi => hsame i (by omega))]
    exact h3 k hk hpos
  unfold rangesStep
  simp only [hR]
  by_cases hf : total + pairs ≥ perThread * (thread + 1)
  · rw [if_pos hf]
    set M := R.modify thread fun x => { x with num := x.num + (toAdd + 1) } with hM
    have hMlen : M.length = numThreads := by rw [hM, List.length_modify, hlen]
    have hMeq : M.getD thread ⟨0, 0, 0⟩ = { R.getD thread ⟨0, 0, 0⟩ with num := (R.getD thread ⟨0, 0, 0⟩).num + (toAdd + 1) } :=
      getD_modify_eq (by omega)
    have hMne : ∀ k, k ≠ thread → M.getD k ⟨0, 0, 0⟩ = R.getD k ⟨0, 0, 0⟩ := fun k hk => getD_modify_ne (Ne.symm hk)
    have hMoff : ∀ k ≤ thread, rangeOffset M k = rangeOffset R k := fun k hk => rangeOffset_congr (by omega) (fun i hi => hMne i (by omega))
    by_cases hl : thread + 1 ≥ numThreads
    · rw [if_pos hl]
      refine ⟨hMlen, h2, ?_, (fun hx => by cases hx), fun _ => ⟨?_, ?_⟩⟩
      · intro k hk hpos
        simp only at hk hpos ⊢
        rw [hMne k (by omega)] at hpos ⊢
        rw [hMoff k (by omega)]
        exact hbefore k hk hpos
      · simp only
        rw [hMoff thread (le_refl _), hMeq]
        exact hstart
      · simp only
        rw [hMoff thread (le_refl _), hMeq]
        simp only
        omega
    · rw [if_neg hl]
      refine ⟨hMlen, by simp only; omega, ?_, fun _ => ⟨rfl, ?_⟩, (fun hx => by cases hx)⟩
      · intro k hk hpos
        simp only at hk hpos ⊢
        rw [hMoff k (by omega)]
        by_cases hkt : k = thread
        · subst hkt
          rw [hMeq]
          exact hstart
        · rw [hMne k hkt] at hpos ⊢
          exact hbefore k (by omega) hpos
      · simp only
        rw [rangeOffset_succ (by omega), hMoff thread (le_refl _), hMeq]
        simp only
        omega
  · rw [if_neg hf]
    refine ⟨hlen, h2, hbefore, (fun hx => by cases hx), fun _ => ⟨hstart, ?_⟩⟩
    simp only
    omega

theorem ranges_fold {L : List (Nat × Nat)} {perThread numThreads : Nat} (pairs : Nat × Nat → Nat) (done todo : List (Nat × Nat)) (hL : L = done ++ todo)
    {r : RangesState} (h : RangesInv L numThreads done.length r) :
    RangesInv L numThreads L.length ((todo.map fun c => (c, pairs c)).foldl (rangesStep perThread numThreads) r) := by
  induction todo generalizing done r with
  | nil =>
    rw [List.append_nil] at hL
    subst hL
    exact h
  | cons c todo ih =>
    rw [List.map_cons, List.foldl_cons]
    refine ih (done ++ [c]) (by rw [hL]; simp) ?_
    rw [List.length_append]
    refine rangesStep_inv h ?_ _
    rw [hL, List.getElem?_append_right (le_refl _)]
    simp

theorem segments_take {L : List (Nat × Nat)} (ranges : List ClusterRange) (n : Nat) (hn : n ≤ ranges.length) :
    (List.range n).flatMap (fun k => (L.drop (rangeOffset ranges k)).take (ranges.getD k ⟨0, 0, 0⟩).num) = L.take (rangeOffset ranges n) := by
  induction n with
  | zero => simp [rangeOffset]
  | succ n ih =>
    rw [List.range_succ, List.flatMap_append, ih (by omega), List.flatMap_cons, List.flatMap_nil, List.append_nil, rangeOffset_succ (by omega),
      List.take_add]

end Verif
