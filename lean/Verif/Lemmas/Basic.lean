import Verif.Model.Basic
namespace Verif

theorem mem_forUp {start stop step i : Nat} (hs : 0 < step) :
    i ∈ forUp start stop step ↔ start ≤ i ∧ i < stop ∧ (i - start) % step = 0 := by
  fun_induction forUp start stop step with
  | case1 start h ih =>
    rw [List.mem_cons, ih]
    constructor
    · rintro (rfl | ⟨h1, h2, h3⟩)
      · exact ⟨Nat.le_refl _, h.1, by simp⟩
      · refine ⟨by omega, h2, ?_⟩
        have : i - start = (i - (start + step)) + step := by omega
        rw [this, Nat.add_mod_right]; exact h3
    · rintro ⟨h1, h2, h3⟩
      by_cases he : i = start
      · exact Or.inl he
      · right
        have hge : step ≤ i - start := by
          rcases Nat.lt_or_ge (i - start) step with hlt | hge
          · rw [Nat.mod_eq_of_lt hlt] at h3; omega
          · exact hge
        refine ⟨by omega, h2, ?_⟩
        have : i - start = (i - (start + step)) + step := by omega
        rw [this, Nat.add_mod_right] at h3; exact h3
  | case2 start h =>
    simp only [List.not_mem_nil, false_iff]
    omega

theorem nodup_forUp (start stop step : Nat) : (forUp start stop step).Nodup := by
  by_cases hs : 0 < step
  · fun_induction forUp start stop step with
    | case1 start h ih =>
      rw [List.nodup_cons]
      refine ⟨?_, ih⟩
      rw [mem_forUp hs]; omega
    | case2 => exact List.nodup_nil
  · unfold forUp; simp [hs]

@[simp] theorem mem_forInt {a b i : Int} : i ∈ forInt a b ↔ a ≤ i ∧ i ≤ b := by
  unfold forInt
  simp only [List.mem_map, List.mem_range]
  constructor
  · rintro ⟨k, hk, rfl⟩; omega
  · rintro ⟨h1, h2⟩; exact ⟨(i - a).toNat, by omega, by omega⟩

theorem nodup_forInt (a b : Int) : (forInt a b).Nodup := by
  unfold forInt
  rw [List.Nodup, List.pairwise_map]
  have := @List.nodup_range (b - a + 1).toNat
  refine List.Pairwise.imp ?_ this
  intro x y hxy h; omega

end Verif
