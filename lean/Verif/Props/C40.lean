import Verif.Model.MPITuning
import Verif.Lemmas.IterTotal
/-!
# C40 — MPI tuning distributes the whole search space
-/
namespace Verif

section
variable {C : Type}

theorem forUp_getElem_length (queue : List C) (a n : Nat) (hn : 0 < n) :
    ((forUp a queue.length n).flatMap fun i => (queue[i]?).toList).length = (forUp a queue.length n).length := by
  rw [List.length_flatMap]
  have : ∀ i ∈ forUp a queue.length n, ((queue[i]?).toList).length = 1 := by
    intro i hi
    have := (mem_forUp hn).1 hi
    rw [List.getElem?_eq_getElem this.2.1]; rfl
  rw [List.map_congr_left this]
  simp

theorem forUp_length (a b n : Nat) (hn : 0 < n) : (forUp a b n).length = (b - a + n - 1) / n := by
  fun_induction forUp a b n with
  | case1 a h ih =>
    rw [List.length_cons, ih]
    have e : b - a + n - 1 = (b - (a + n) + n - 1) + n ∨ b - (a + n) = 0 := by omega
    rcases e with e | e
    · rw [e, Nat.add_div_right _ hn]
    · rw [e]
      have h1 : (0 + n - 1) / n = 0 := Nat.div_eq_of_lt (by omega)
      have h2 : (b - a + n - 1) / n = 1 := by
        rw [Nat.div_eq_iff hn]; omega
      omega
  | case2 a h =>
    symm
    simp only [List.length_nil]
    apply Nat.div_eq_of_lt
    omega

/-- C40 (partial). With at most as many ranks as configurations, the queues of the ranks together are exactly the configurations, each given to one
rank; every rank gets at least one; any two ranks' numbers differ by at most one. Missing: more ranks than configurations, see
`C40_more_ranks_than_configurations` and `C40_violated_surplus_ranks`. -/
theorem C40_round_robin_partial (queue : List C) {numRanks : Nat} (hn : 0 < numRanks) (hle : numRanks ≤ queue.length) (pick : Nat → Nat) :
    ∃ qs : Nat → List C, (∀ r < numRanks, rankQueue queue numRanks r (pick r) = .ok (qs r)) ∧
      ((List.range numRanks).flatMap qs).Perm queue ∧ (∀ r < numRanks, qs r ≠ []) ∧
      ∀ r < numRanks, ∀ r' < numRanks, (qs r).length ≤ (qs r').length + 1 := by
  refine ⟨fun r => (forUp r queue.length numRanks).flatMap fun i => (queue[i]?).toList, ?_, ?_, ?_, ?_⟩
  · intro r hr
    unfold rankQueue
    rw [if_pos (by omega)]
  · rw [← List.flatMap_assoc]
    have h := forUp_threads 0 queue.length numRanks hn
    simp only [Nat.zero_add] at h
    refine (h.flatMap_right _).trans ?_
    have e : forUp 0 queue.length 1 = List.range queue.length := by
      apply List.Perm.eq_of_pairwise (le := fun a b => a < b)
      · intro a b _ _ h1 h2; omega
      · have : ∀ a b, (forUp a b 1).Pairwise (· < ·) := by
          intro a b
          fun_induction forUp a b 1 with
          | case1 a h ih =>
            rw [List.pairwise_cons]
            exact ⟨fun x hx => by have := (mem_forUp Nat.one_pos).1 hx; omega, ih⟩
          | case2 => exact List.Pairwise.nil
        exact this _ _
      · exact List.pairwise_lt_range
      · apply (List.perm_ext_iff_of_nodup (nodup_forUp _ _ _) List.nodup_range).2
        intro i
        rw [mem_forUp Nat.one_pos, List.mem_range, Nat.mod_one]; omega
    rw [e]
    apply List.Perm.of_eq
    clear h e hle
    induction queue with
    | nil => rfl
    | cons c q ih =>
      rw [List.length_cons, List.range_succ_eq_map, List.flatMap_cons, List.flatMap_map]
      simpa using ih
  · intro r hr
    rw [← List.length_pos_iff, forUp_getElem_length _ _ _ hn, forUp_length _ _ _ hn]
    apply Nat.div_pos
    · omega
    · exact hn
  · intro r hr r' hr'
    simp only
    rw [forUp_getElem_length _ _ _ hn, forUp_getElem_length _ _ _ hn, forUp_length _ _ _ hn, forUp_length _ _ _ hn]
    calc (queue.length - r + numRanks - 1) / numRanks ≤ ((queue.length - r' + numRanks - 1) + numRanks) / numRanks :=
          Nat.div_le_div_right (by omega)
      _ = _ := by rw [Nat.add_div_right _ hn]

/-- With more ranks than configurations (at least one) every rank gets exactly one configuration and every configuration is given to some rank. -/
theorem C40_more_ranks_than_configurations (queue : List C) {numRanks : Nat} (hne : queue ≠ []) (hgt : queue.length < numRanks) (pick : Nat → Nat)
    (hp : ∀ r, pick r < queue.length) :
    ∃ qs : Nat → List C, (∀ r < numRanks, rankQueue queue numRanks r (pick r) = .ok (qs r) ∧ (qs r).length = 1 ∧ ∀ c ∈ qs r, c ∈ queue) ∧
      ∀ c ∈ queue, ∃ r < numRanks, qs r = [c] := by
  have hn : 0 < numRanks := by omega
  refine ⟨fun r => if h : r < queue.length then [queue[r]] else [queue[pick r]'(hp r)], ?_, ?_⟩
  · intro r hr
    unfold rankQueue
    beta_reduce
    by_cases h : r < queue.length
    · rw [if_pos h, dif_pos h]
      refine ⟨?_, rfl, fun c hc => by rw [List.mem_singleton] at hc; rw [hc]; exact List.getElem_mem _⟩
      congr 1
      have : forUp r queue.length numRanks = [r] := by
        rw [forUp, dif_pos ⟨h, hn⟩, forUp, dif_neg (by omega)]
      rw [this]
      simp [List.getElem?_eq_getElem h]
    · rw [if_neg h, dif_neg h, List.getElem?_eq_getElem (hp r)]
      exact ⟨rfl, rfl, fun c hc => by rw [List.mem_singleton] at hc; rw [hc]; exact List.getElem_mem _⟩
  · intro c hc
    obtain ⟨i, hi, rfl⟩ := List.getElem_of_mem hc
    exact ⟨i, by omega, dif_pos hi⟩

/-- C40 fails with more ranks than configurations: some configuration is tested by two ranks. (And an empty queue is undefined behaviour.) -/
theorem C40_violated_surplus_ranks (c : C) : rankQueue [c] 2 0 0 = .ok [c] ∧ rankQueue [c] 2 1 0 = .ok [c] ∧
    ∀ pick, rankQueue ([] : List C) 1 0 pick = .ub := by
  refine ⟨?_, rfl, fun _ => rfl⟩
  unfold rankQueue
  rw [if_pos (by simp), forUp, dif_pos (by simp), forUp, dif_neg (by simp)]
  rfl

end

/-- Five configurations on two ranks. -/
example : rankQueue [10, 11, 12, 13, 14] 2 0 0 = .ok [10, 12, 14] ∧ rankQueue [10, 11, 12, 13, 14] 2 1 0 = .ok [11, 13] := by
  refine ⟨?_, ?_⟩ <;> simp [rankQueue, forUp]

end Verif
