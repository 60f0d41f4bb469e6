import Verif.Props.C41
/-!
# C50 — all MPI ranks agree on the best configuration
-/
namespace Verif

open Spec

theorem minloc_spec (vs : List Int) : ∀ r, vs ≠ [] → ∃ v k, minloc vs r = some (v, r + k) ∧ vs[k]? = some v ∧ (∀ w ∈ vs, v ≤ w) ∧
    ∀ j < k, ∀ w, vs[j]? = some w → v < w := by
  induction vs with
  | nil => intro r h; exact absurd rfl h
  | cons v vs ih =>
    intro r _
    by_cases hn : vs = []
    · subst hn
      exact ⟨v, 0, rfl, rfl, by simp, by simp⟩
    · obtain ⟨w, k, h1, h2, h3, h4⟩ := ih (r + 1) hn
      unfold minloc
      rw [h1]
      by_cases hv : v ≤ w
      · refine ⟨v, 0, by simp [hv], rfl, ?_, by simp⟩
        intro x hx
        rcases List.mem_cons.1 hx with rfl | hx
        · exact le_refl _
        · exact hv.trans (h3 x hx)
      · refine ⟨w, k + 1, ?_, by simpa using h2, ?_, ?_⟩
        · simp only [if_neg hv, Option.some.injEq, Prod.mk.injEq, true_and]; omega
        · intro x hx
          rcases List.mem_cons.1 hx with rfl | hx
          · omega
          · exact h3 x hx
        · intro j hj x hx
          cases j with
          | zero => simp only [List.getElem?_cons_zero, Option.some.injEq] at hx; omega
          | succ j => rw [List.getElem?_cons_succ] at hx; exact h4 j (by omega) x hx

/-- All ranks agree on one configuration, and it is the local optimum of a rank whose time is smallest among all ranks. -/
theorem C50_global_best (ranks : List (Configuration Nat × Int)) (hne : ranks ≠ []) (h : ∀ x ∈ ranks, Representable x.1) :
    ∃ x ∈ ranks, findGloballyBestConfiguration ranks = some x.1 ∧ ∀ y ∈ ranks, x.2 ≤ y.2 := by
  obtain ⟨v, k, h1, h2, h3, -⟩ := minloc_spec (ranks.map Prod.snd) 0 (by simpa using hne)
  rw [List.getElem?_map, Option.map_eq_some_iff] at h2
  obtain ⟨x, hx, rfl⟩ := h2
  have hmem := List.mem_of_getElem? hx
  refine ⟨x, hmem, ?_, fun y hy => h3 _ (List.mem_map.2 ⟨y, hy, rfl⟩)⟩
  unfold findGloballyBestConfiguration
  rw [h1]
  simp only [Nat.zero_add, hx, Option.map_some]
  rw [deserialize_serialize (h x hmem)]

/-- Three ranks, the second and third with the smallest time: the second one's configuration is chosen. -/
example : findGloballyBestConfiguration [(⟨1, 6, 0, 0, 1, 0x3ff0000000000000, 1⟩, 20), (⟨1, 8, 0, 1, 0, 0x3ff0000000000000, 1⟩, 10),
    (⟨0, 0, 0, 0, 0, 0x4000000000000000, 1⟩, 10)] = some ⟨1, 8, 0, 1, 0, 0x3ff0000000000000, 1⟩ := by decide

end Verif
