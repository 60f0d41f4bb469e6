import Verif.Lemmas.Sampling
/-!
# C116 — samples of options and numbers

`sh.Ok`: shuffling permutes.

* `C116_sample`, `C116_interval`, `C116_subset`, `C116_set`, `C116_set_finite`, `C116_pick`: what samples of finite sets and intervals consist of.
* `C116_median`: the median. `C116_lhs_cluster`: samples for the model with discrete and continuous inputs.
* `C116_lhs`: a Latin hypercube sample of the search space has the requested size, only consists of allowed options, and every option occurs as often as the others
  of its kind, give or take one.
* **Violation** `C116_violated_never_drawn`, `C116_violated_lhs`: which elements occur once more is not random, it is always the first ones; with fewer samples than
  options the last options never occur, whatever is drawn.
* **Violation** `C116_violated_pick_empty`, `C116_violated_no_options`: picking from an empty set is undefined, sampling without options does not end.
-/
namespace Verif
open Spec

theorem C116_sample {α : Type} [DecidableEq α] {sh : Shuffler} (hsh : sh.Ok) (r : Nat) (pool : List α) (hnd : pool.Nodup) (n : Nat) :
    (pool = [] → uniformSample sh r pool n = .throws) ∧
      (pool ≠ [] → ∃ l, uniformSample sh r pool n = .ok l ∧ l.length = n ∧ BalancedSample pool l) :=
  ⟨fun h => by rw [h]; rfl, fun h => uniformSample_balanced hsh r h hnd n⟩

theorem C116_interval {sh : Shuffler} (hsh : sh.Ok) (r : Nat) {lo hi : Rat} (hle : lo ≤ hi) (n : Nat) :
    ∃ l, (NumSet.interval lo hi).uniformSample sh r n = .ok l ∧ l.length = n ∧ EvenlySpaced lo hi n l ∧ (∀ x ∈ l, lo ≤ x ∧ x ≤ hi) ∧
      (2 ≤ n → lo ∈ l ∧ hi ∈ l) := by
  obtain ⟨l, h1, h2, h3⟩ := interval_sample hsh r lo hi n
  refine ⟨l, h1, h2, h3, ?_, ?_⟩
  · intro x hx
    by_cases hn : n = 1
    · rw [h3.1 hn, List.mem_singleton] at hx
      subst hx
      constructor <;> linarith
    · rw [(h3.2 hn).mem_iff] at hx
      obtain ⟨i, hi', rfl⟩ := List.mem_map.1 hx
      rw [List.mem_range] at hi'
      have hpos : (0 : Rat) < (n : Rat) - 1 := by
        have : (1 : Rat) < n := by exact_mod_cast (by omega : 1 < n)
        linarith
      have hin : (i : Rat) ≤ (n : Rat) - 1 := by
        have : ((i + 1 : Nat) : Rat) ≤ n := by exact_mod_cast hi'
        push_cast at this
        linarith
      have h4 : 0 ≤ (hi - lo) * (i : Rat) / ((n : Rat) - 1) := div_nonneg (mul_nonneg (by linarith) (Nat.cast_nonneg _)) hpos.le
      have h5 : (hi - lo) * (i : Rat) / ((n : Rat) - 1) ≤ hi - lo := by
        rw [div_le_iff₀ hpos]
        exact mul_le_mul_of_nonneg_left hin (by linarith)
      constructor <;> linarith
  · intro hn
    rw [(h3.2 (by omega)).mem_iff, (h3.2 (by omega)).mem_iff]
    have hpos : (0 : Rat) < (n : Rat) - 1 := by
      have : (1 : Rat) < n := by exact_mod_cast (by omega : 1 < n)
      linarith
    constructor
    · exact List.mem_map.2 ⟨0, by simp; omega, by simp⟩
    · refine List.mem_map.2 ⟨n - 1, by simp; omega, ?_⟩
      have : ((n - 1 : Nat) : Rat) = (n : Rat) - 1 := by rw [Nat.cast_sub (by omega)]; simp
      rw [this, mul_div_assoc, div_self hpos.ne']
      ring

theorem C116_subset {α : Type} {sh : Shuffler} (hsh : sh.Ok) (r : Nat) {pool : List α} (hnd : pool.Nodup) (n : Nat) :
    (randomSubset sh r pool n).Nodup ∧ randomSubset sh r pool n ⊆ pool ∧ (randomSubset sh r pool n).length = min n pool.length := by
  unfold randomSubset
  refine ⟨((hsh r pool).nodup_iff.2 hnd).sublist (List.take_sublist _ _), ?_, ?_⟩
  · intro x hx
    exact (hsh r pool).mem_iff.1 (List.mem_of_mem_take hx)
  · rw [List.length_take, (hsh r pool).length_eq]
    omega

/-- A sample of an interval as a set: as many different numbers as asked for, unless the interval is one number. -/
theorem C116_set {sh : Shuffler} (r : Nat) {lo hi : Rat} (hlt : lo < hi) (n : Nat) :
    ((NumSet.interval lo hi).uniformSampleSet sh r n).Nodup ∧ ((NumSet.interval lo hi).uniformSampleSet sh r n).length = n ∧
      EvenlySpaced lo hi n ((NumSet.interval lo hi).uniformSampleSet sh r n) := by
  unfold NumSet.uniformSampleSet
  simp only
  rw [if_neg hlt.ne' (c := hi = lo)]
  split_ifs with h0 h1
  · subst h0
    exact ⟨List.nodup_nil, rfl, fun h => absurd h (by omega), fun _ => by simp⟩
  · subst h1
    exact ⟨by simp, rfl, fun _ => by rw [add_comm], fun h => absurd rfl h⟩
  · have h2 : 2 ≤ n := by omega
    rw [ratGrid_eq lo hi h2]
    refine ⟨?_, by simp, fun h => absurd h h1, fun _ => List.Perm.refl _⟩
    apply List.Nodup.map _ List.nodup_range
    intro i j hij
    have hpos : (0 : Rat) < (n : Rat) - 1 := by
      have : (1 : Rat) < n := by exact_mod_cast (by omega : 1 < n)
      linarith
    simp only at hij
    have h3 : (hi - lo) * (i : Rat) / ((n : Rat) - 1) = (hi - lo) * (j : Rat) / ((n : Rat) - 1) := by linarith
    rw [div_left_inj' hpos.ne'] at h3
    exact_mod_cast mul_left_cancel₀ (by linarith : hi - lo ≠ 0) h3

/-- If the interval is one number, the set consists of it; a sample of a finite set consists of different elements of it. -/
theorem C116_set_finite {sh : Shuffler} (hsh : sh.Ok) (r : Nat) (n : Nat) :
    (∀ x : Rat, n ≠ 0 → (NumSet.interval x x).uniformSampleSet sh r n = [x]) ∧
      ∀ xs : List Rat, xs.Nodup → ((NumSet.finite xs).uniformSampleSet sh r n).Nodup ∧ (NumSet.finite xs).uniformSampleSet sh r n ⊆ xs ∧
        ((NumSet.finite xs).uniformSampleSet sh r n).length = min n xs.length := by
  refine ⟨fun x hn => ?_, fun xs hnd => C116_subset hsh r hnd n⟩
  unfold NumSet.uniformSampleSet
  simp [hn]

/-- The median of an interval is its middle; the median of a finite set is the element with half of the elements (rounded down) below it. It is undefined for the
empty set. -/
theorem C116_median :
    (∀ lo hi : Rat, ∃ m, (NumSet.interval lo hi).getMedian = .ok m ∧ m - lo = hi - m) ∧ (NumSet.finite []).getMedian = .ub ∧
      ∀ xs : List Rat, xs ≠ [] → xs.Pairwise (· < ·) → ∃ m ∈ xs, (NumSet.finite xs).getMedian = .ok m ∧ (xs.filter (· < m)).length = xs.length / 2 := by
  refine ⟨fun lo hi => ⟨_, rfl, by ring⟩, rfl, fun xs hne hs => ?_⟩
  have hl : xs.length / 2 < xs.length := by have := List.length_pos_iff.2 hne; omega
  refine ⟨xs[xs.length / 2], List.getElem_mem _, by unfold NumSet.getMedian; simp only [List.getElem?_eq_getElem hl], ?_⟩
  have gen : ∀ (xs : List Rat) (k : Nat) (hk : k < xs.length), xs.Pairwise (· < ·) → (xs.filter (· < xs[k])).length = k := by
    intro xs
    induction xs with
    | nil => intro k hk; simp at hk
    | cons x xs ih =>
      intro k hk hs
      rw [List.pairwise_cons] at hs
      cases k with
      | zero =>
        simp only [List.getElem_cons_zero, List.length_eq_zero_iff, List.filter_eq_nil_iff, decide_eq_true_eq, not_lt]
        intro a ha
        rcases List.mem_cons.1 ha with rfl | ha
        · exact le_refl _
        · exact (hs.1 a ha).le
      | succ k =>
        simp only [List.getElem_cons_succ]
        have hk' : k < xs.length := by simpa using hk
        rw [List.filter_cons_of_pos (by simpa using hs.1 _ (List.getElem_mem hk'))]
        rw [List.length_cons, ih k hk' hs.2]
  exact gen xs _ hl hs

theorem C116_pick {α : Type} {draw : Nat → Nat → Nat} (hdraw : ∀ lo hi, lo ≤ hi → lo ≤ draw lo hi ∧ draw lo hi ≤ hi) {pool : List α} (hne : pool ≠ []) :
    ∃ x ∈ pool, pickRandom draw pool = .ok x := by
  have hl : 0 < pool.length := List.length_pos_iff.2 hne
  have hp : wrapPred pool.length = pool.length - 1 := by unfold wrapPred; rw [if_neg (by omega)]
  have h := (hdraw 0 (pool.length - 1) (by omega)).2
  unfold pickRandom
  rw [hp, List.getElem?_eq_getElem (by omega)]
  exact ⟨_, List.getElem_mem _, rfl⟩

/-- Samples for the model with discrete and continuous inputs: a sample of the cell size factors, each with the iteration. -/
theorem C116_lhs_cluster {sh : Shuffler} (hsh : sh.Ok) (r : Nat) {csf : NumSet} (hd : csf ≠ .finite []) (n : Nat) (iteration : Rat) :
    ∃ c, csf.uniformSample sh r n = .ok c ∧ c.length = n ∧ lhsSampleFeatureCluster csf sh r n iteration = .ok (c.map fun x => [x, iteration]) := by
  obtain ⟨c, e1, e2⟩ := numSet_sample hsh r csf hd n
  refine ⟨c, e1, e2, ?_⟩
  unfold lhsSampleFeatureCluster
  rw [e1, ok_bind_eq]
  congr 1
  apply List.ext_getElem
  · simp [e2]
  · intro i h1 h2
    simp only [List.length_map] at h2
    simp [List.getElem?_eq_getElem h2]

/-- Latin hypercube samples. -/
theorem C116_lhs {A B C : Type} [DecidableEq A] [DecidableEq B] [DecidableEq C] {sh : Shuffler} (hsh : sh.Ok) (r : Nat) (E : Encoder A B C) (csf : NumSet)
    (ha : E.ctes ≠ []) (hb : E.dataLayouts ≠ []) (hc : E.newton3s ≠ []) (hd : csf ≠ .finite [])
    (na : E.ctes.Nodup) (nb : E.dataLayouts.Nodup) (nc : E.newton3s.Nodup)
    (la : E.ctes.length ≤ samplingSizeMax) (lb : E.dataLayouts.length ≤ samplingSizeMax) (lc : E.newton3s.length ≤ samplingSizeMax) (n : Nat) :
    ∃ vs c, E.lhsSampleFeatures csf sh r n = .ok vs ∧ vs.length = n ∧ BalancedSample E.ctes (vs.map fun v => v.cte) ∧
      BalancedSample E.dataLayouts (vs.map fun v => v.dataLayout) ∧ BalancedSample E.newton3s (vs.map fun v => v.newton3) ∧
      csf.uniformSample sh (r + 6) n = .ok c ∧ (vs.map fun v => v.cellSizeFactor) = c ∧ ∀ v ∈ vs, v.interactionType = E.interactionType := by
  obtain ⟨d0, a1, a2, a3, a4⟩ := range_sample hsh r (List.length_pos_iff.2 ha) la n
  obtain ⟨d1, b1, b2, b3, b4⟩ := range_sample hsh (r + 2) (List.length_pos_iff.2 hb) lb n
  obtain ⟨d2, c1, c2, c3, c4⟩ := range_sample hsh (r + 4) (List.length_pos_iff.2 hc) lc n
  obtain ⟨c, e1, e2⟩ := numSet_sample hsh (r + 6) csf hd n
  have hget : ∀ (d : List Nat) (m : Nat), d.length = n → (∀ x ∈ d, x < m) → ∀ i ∈ List.range n, d.getD i 0 < m := by
    intro d m hl hm i hi
    rw [List.mem_range] at hi
    rw [List.getD_eq_getElem _ _ (by omega)]
    exact hm _ (List.getElem_mem _)
  obtain ⟨vs, v1, v2, v3, v4, v5, v6⟩ := collect_ok (E := E) (d0 := d0) (d1 := d1) (d2 := d2) (c := c) (List.range n)
    fun i hi => ⟨hget d0 _ a2 a3 i hi, hget d1 _ b2 b3 i hi, hget d2 _ c2 c3 i hi⟩
  have hlen : vs.length = n := by simpa using congrArg List.length v5
  have bal : ∀ {α : Type} [DecidableEq α] (opts : List α), opts ≠ [] → opts.Nodup → ∀ d : List Nat, d.length = n → (∀ x ∈ d, x < opts.length) →
      (∀ x < opts.length, d.count x = n / opts.length + if x < n % opts.length then 1 else 0) → ∀ ws : List α, ws.length = n →
      ws.map some = (List.range n).map (fun i => opts[d.getD i 0]?) → BalancedSample opts ws := by
    intro α _ opts hne hnd d dl hd' hcount ws hw hws
    have hm : 0 < opts.length := List.length_pos_iff.2 hne
    constructor
    · intro x hx
      have : some x ∈ (List.range n).map (fun i => opts[d.getD i 0]?) := by rw [← hws]; exact List.mem_map_of_mem hx
      obtain ⟨i, -, hi⟩ := List.mem_map.1 this
      exact List.mem_of_getElem? hi
    · intro x hx
      obtain ⟨j, hj, rfl⟩ := List.getElem_of_mem hx
      rw [count_options hnd hd' (by rw [dl]; exact hws) hj, hcount j hj, hw]
      refine ⟨by omega, ?_⟩
      rw [Nat.le_div_iff_mul_le hm]
      have hdm := Nat.div_add_mod n opts.length
      rw [Nat.mul_comm] at hdm
      split_ifs with h
      · rw [Nat.add_mul]; omega
      · rw [Nat.add_zero]; omega
  refine ⟨vs, c, ?_, hlen, ?_, ?_, ?_, e1, ?_, v6⟩
  · unfold Encoder.lhsSampleFeatures
    rw [a1, ok_bind_eq, b1, ok_bind_eq, c1, ok_bind_eq, e1, ok_bind_eq, v1]
  · exact bal E.ctes ha na d0 a2 a3 a4 _ (by simpa using hlen) (by rw [List.map_map]; exact v2)
  · exact bal E.dataLayouts hb nb d1 b2 b3 b4 _ (by simpa using hlen) (by rw [List.map_map]; exact v3)
  · exact bal E.newton3s hc nc d2 c2 c3 c4 _ (by simpa using hlen) (by rw [List.map_map]; exact v4)
  · rw [v5]
    apply List.ext_getElem
    · simp [e2]
    · intro i h1 h2
      simp only [List.getElem_map, List.getElem_range]
      rw [List.getD_eq_getElem _ _ (by omega)]

/-- Which elements occur once more is always the same: the first ones. -/
theorem C116_extra {α : Type} [DecidableEq α] {sh : Shuffler} (hsh : sh.Ok) (r : Nat) {pool : List α} (hne : pool ≠ []) (hnd : pool.Nodup) (n : Nat) :
    ∃ l, uniformSample sh r pool n = .ok l ∧ ∀ x ∈ pool, l.count x = n / pool.length + if x ∈ pool.take (n % pool.length) then 1 else 0 := by
  obtain ⟨l, h1, -, -, h4⟩ := uniformSample_count hsh r hne hnd n
  exact ⟨l, h1, h4⟩

/-- **Violation**: with two samples out of three elements the last one is never drawn. -/
theorem C116_violated_never_drawn : ∀ (sh : Shuffler), sh.Ok → ∀ (r : Nat) (l : List Nat), uniformSample sh r [0, 1, 2] 2 = .ok l → 2 ∉ l := by
  intro sh hsh r l h
  obtain ⟨l', h1, h2⟩ := uniformSample_perm hsh r (pool := [0, 1, 2]) (by simp) 2
  rw [h1] at h
  rw [← Outcome.ok.inj h, h2.mem_iff]
  decide

/-- **Violation**: with fewer samples than options, the last options do not occur in any sample of the search space. -/
theorem C116_violated_lhs {A B C : Type} [DecidableEq A] [DecidableEq B] [DecidableEq C] {sh : Shuffler} (hsh : sh.Ok) (r : Nat) (E : Encoder A B C) (csf : NumSet)
    (na : E.ctes.Nodup) (la : E.ctes.length ≤ samplingSizeMax) {n : Nat} {vs : List (FeatureVector A B C)}
    (hvs : E.lhsSampleFeatures csf sh r n = .ok vs) {j : Nat} (hj : j < E.ctes.length) (hnj : n ≤ j) : ∀ v ∈ vs, v.cte ≠ E.ctes[j] := by
  have ha : E.ctes ≠ [] := by intro h; rw [h] at hj; simp at hj
  obtain ⟨d0, a1, a2, a3, a4⟩ := range_sample hsh r (List.length_pos_iff.2 ha) la n
  have hcount : d0.count j = 0 := by
    rw [a4 j hj, Nat.div_eq_of_lt (by omega), Nat.mod_eq_of_lt (by omega), if_neg (by omega)]
  unfold Encoder.lhsSampleFeatures at hvs
  rw [a1, ok_bind_eq] at hvs
  have hj0 : j ∉ d0 := List.count_eq_zero.1 hcount
  have key : ∀ (d1 d2 : List Nat) (c : List Rat) (is : List Nat), (∀ i ∈ is, i < n) → ∀ vs, E.collect d0 d1 d2 c is = .ok vs → ∀ v ∈ vs, v.cte ≠ E.ctes[j] := by
    intro d1 d2 c is
    induction is with
    | nil => intro _ vs h; cases h; simp
    | cons i is ih =>
      intro hi vs h
      unfold Encoder.collect Encoder.convertFromTunable at h
      simp only [List.getD_cons_zero, List.getD_cons_succ] at h
      have hin := hi i (by simp)
      have hd : d0.getD i 0 ∈ d0 := by rw [List.getD_eq_getElem _ _ (by omega)]; exact List.getElem_mem _
      have hlt := a3 _ hd
      rw [List.getElem?_eq_getElem hlt] at h
      split at h
      · rename_i a b e x1 x2 x3
        cases hrest : E.collect d0 d1 d2 c is with
        | ok ws =>
          rw [ok_bind_eq, hrest, ok_bind_eq] at h
          cases h
          intro v hv
          rcases List.mem_cons.1 hv with rfl | hv
          · show a ≠ _
            rw [← Option.some.inj x1]
            intro he
            have : d0.getD i 0 = j := (List.Nodup.getElem_inj_iff na).1 he
            rw [this] at hd
            exact hj0 hd
          · exact ih (fun i hi' => hi i (by simp [hi'])) ws hrest v hv
        | throws => rw [ok_bind_eq, hrest] at h; cases h
        | ub => rw [ok_bind_eq, hrest] at h; cases h
        | diverges => rw [ok_bind_eq, hrest] at h; cases h
      · cases h
  cases h1 : uniformSampleRange sh (r + 2) 0 (wrapPred E.dataLayouts.length) n with
  | throws => rw [h1] at hvs; cases hvs
  | ub => rw [h1] at hvs; cases hvs
  | diverges => rw [h1] at hvs; cases hvs
  | ok d1 =>
    rw [h1, ok_bind_eq] at hvs
    cases h2 : uniformSampleRange sh (r + 4) 0 (wrapPred E.newton3s.length) n with
    | throws => rw [h2] at hvs; cases hvs
    | ub => rw [h2] at hvs; cases hvs
    | diverges => rw [h2] at hvs; cases hvs
    | ok d2 =>
      rw [h2, ok_bind_eq] at hvs
      cases h3 : csf.uniformSample sh (r + 6) n with
      | throws => rw [h3] at hvs; cases hvs
      | ub => rw [h3] at hvs; cases hvs
      | diverges => rw [h3] at hvs; cases hvs
      | ok c =>
        rw [h3, ok_bind_eq] at hvs
        exact key d1 d2 c _ (fun i hi => by simpa using hi) vs hvs

/-- **Violation**: picking from an empty set. -/
theorem C116_violated_pick_empty (α : Type) (draw : Nat → Nat → Nat) : pickRandom draw ([] : List α) = .ub := rfl

/-- **Violation**: without options, sampling does not end. -/
theorem C116_violated_no_options {A B C : Type} [DecidableEq A] [DecidableEq B] [DecidableEq C] (E : Encoder A B C) (h : E.ctes = []) (csf : NumSet) (sh : Shuffler)
    (r n : Nat) : E.lhsSampleFeatures csf sh r n = .diverges := by
  unfold Encoder.lhsSampleFeatures uniformSampleRange
  rw [h]
  simp only [List.length_nil, wrapPred, if_true]
  rfl

/-- Hypotheses are met: shuffling that reverses, two samples of each kind out of three, one and two options. -/
example : Shuffler.Ok (fun _ l => l.reverse) ∧
    (⟨[10, 20, 30], [1], [0, 1], 2⟩ : Encoder Nat Nat Nat).lhsSampleFeatures (.interval 1 2) (fun _ l => l.reverse) 0 2 =
      .ok [⟨20, 1, 1, 2, 2⟩, ⟨10, 1, 0, 1, 2⟩] := by
  refine ⟨fun r l => List.reverse_perm l, ?_⟩
  have h : ratGrid 1 2 2 = [1, 2] := by norm_num [ratGrid, List.range_succ]
  simp [Encoder.lhsSampleFeatures, uniformSampleRange, wrapPred, samplingSizeMax, uniformSample, copyUntil, NumSet.uniformSample, h, List.range_succ, Encoder.collect,
    Encoder.convertFromTunable, Outcome.bind, List.range']

example : (NumSet.finite [1, 2, 4, 8]).getMedian = .ok 4 ∧ ([1, 2, 4, 8] : List Rat).Pairwise (· < ·) := ⟨rfl, by decide +kernel⟩

end Verif
