import Verif.Lemmas.BalanceVectors
/-!
# C28 — Balancing buffers keeps every element and evens sizes
-/
namespace Verif

variable {α : Type}

/-- The loop of `balanceVectors` terminates: it never needs more than two passes, and more allowed passes change nothing. -/
theorem C28_terminates (fuel : Nat) (hf : 2 ≤ fuel) (vs : List (List α)) :
    balanceVectorsFuel fuel vs = some (balanceVectors vs) := by
  have key : ∀ fuel, 2 ≤ fuel → balanceVectorsFuel fuel vs = balanceVectorsFuel 2 vs := by
    intro fuel hf
    unfold balanceVectorsFuel
    by_cases h0 : vs.length = 0
    · simp [h0]
    rw [if_neg h0, if_neg h0]
    obtain ⟨r, hr, -⟩ := balanceVectorsFuel_spec 2 (Nat.le_refl 2) vs
    rw [balanceVectorsFuel, if_neg h0] at hr
    simp only at hr ⊢
    have mono : ∀ (n m pass : Nat) (vs : List (List α)) (tmp : List α) (ftf t k : Nat) (r : List (List α)),
        n ≤ m → balLoop t k n pass vs tmp ftf = some r → balLoop t k m pass vs tmp ftf = some r := by
      intro n
      induction n with
      | zero =>
        intro m pass vs tmp ftf t k r _ h
        rw [balLoop] at h
        split at h
        · cases h
        · rename_i hc
          cases m with
          | zero => rw [balLoop, if_neg hc]; exact h
          | succ m => rw [balLoop, if_neg hc]; exact h
      | succ n ih =>
        intro m pass vs tmp ftf t k r hm h
        obtain ⟨m, rfl⟩ : ∃ j, m = j + 1 := ⟨m - 1, by omega⟩
        rw [balLoop] at h ⊢
        split
        · rename_i hc
          rw [if_pos hc] at h
          exact ih m _ _ _ _ _ _ _ (by omega) h
        · rename_i hc
          rw [if_neg hc] at h
          exact h
    rw [hr, mono 2 fuel _ _ _ _ _ _ _ hf hr]
  rw [key fuel hf]
  obtain ⟨r, hr, -⟩ := balanceVectorsFuel_spec 2 (Nat.le_refl 2) vs
  rw [balanceVectors, hr]
  rfl

/-- No element is lost, duplicated or invented, and the number of vectors stays. -/
theorem C28_keeps_elements (vs : List (List α)) :
    (balanceVectors vs).flatten.Perm vs.flatten ∧ (balanceVectors vs).length = vs.length := by
  obtain ⟨r, hr, h1, h2, -⟩ := balanceVectorsFuel_spec 2 (Nat.le_refl 2) vs
  rw [balanceVectors, hr]
  exact ⟨h2, h1⟩

/-- Every vector ends up with the average size; the first ones get the remaining elements, one each. -/
theorem C28_even_sizes (vs : List (List α)) (j : Nat) (hj : j < (balanceVectors vs).length) :
    ((balanceVectors vs)[j]).length =
      vs.flatten.length / vs.length + (if j < vs.flatten.length % vs.length then 1 else 0) := by
  obtain ⟨r, hr, h1, h2, h3⟩ := balanceVectorsFuel_spec 2 (Nat.le_refl 2) vs
  have e : balanceVectors vs = r := by rw [balanceVectors, hr]; rfl
  simp only [e] at hj ⊢
  rw [balExact_get h3 j hj, Nat.zero_add, balTarget]
  split <;> rfl

/-- Sizes differ by at most one. -/
theorem C28_sizes_differ_by_at_most_one (vs : List (List α)) (a b : List α) (ha : a ∈ balanceVectors vs)
    (hb : b ∈ balanceVectors vs) : a.length ≤ b.length + 1 := by
  obtain ⟨i, hi, rfl⟩ := List.getElem_of_mem ha
  obtain ⟨j, hj, rfl⟩ := List.getElem_of_mem hb
  rw [C28_even_sizes vs i hi, C28_even_sizes vs j hj]
  split <;> split <;> omega

-- three buffers with 5, 0 and 2 elements
example : balanceVectors [[1, 2, 3, 4, 5], [], [6, 7]] = [[1, 2, 3], [4, 5], [6, 7]] := by decide
-- needs the second pass
example : balanceVectors [[], [1], [2, 3, 4, 5, 6]] = [[5, 6], [1, 4], [2, 3]] := by decide

end Verif
