import Verif.Lemmas.CellBlock3D
/-!
# C03 — Clearing the halo removes halo cells only, and all of them
-/
namespace Verif
open Spec

/-- For every grid with `k ≥ 1` halo layers and at least one owned cell per axis and for all cell contents: after
`clearHaloCells` every halo cell is empty and every owned cell is unchanged. -/
theorem C03_clear_halo_exact {P : Type} (dims : V3 Nat) (k : Nat) (hk : 1 ≤ k) (hx : 2 * k + 1 ≤ dims.x)
    (hy : 2 * k + 1 ≤ dims.y) (hz : 2 * k + 1 ≤ dims.z) (cells : Nat → List P) (c : V3 Nat) (hc : InGrid c dims) :
    (IsHalo k dims c → clearHaloCells dims k cells (threeToOneD c dims) = []) ∧
    (¬ IsHalo k dims c → clearHaloCells dims k cells (threeToOneD c dims) = cells (threeToOneD c dims)) := by
  unfold clearHaloCells
  rw [foldl_clear]
  have hm := @mem_clearHaloIndices dims k hk hx hy hz (threeToOneD c dims)
  constructor
  · intro hh
    rw [if_pos (hm.2 ⟨c, hc, hh, rfl⟩)]
  · intro hh
    rw [if_neg]
    rw [hm]
    rintro ⟨c', hc', hh', e⟩
    rw [flat_inj hc hc' e] at hh
    exact hh hh'

/-- Clearing only ever accesses existing cells. -/
theorem C03_clear_halo_in_bounds (dims : V3 Nat) (k : Nat) (hk : 1 ≤ k) (hx : 2 * k + 1 ≤ dims.x)
    (hy : 2 * k + 1 ≤ dims.y) (hz : 2 * k + 1 ≤ dims.z) (n : Nat) (hn : n ∈ clearHaloIndices dims k) :
    n < numCells dims := by
  rw [mem_clearHaloIndices hk hx hy hz] at hn
  obtain ⟨c, hc, -, rfl⟩ := hn
  exact flat_lt hc

-- a 3×4×5 grid with one halo layer has 54 halo cells and 6 owned cells
example : clearHaloCells (P := Nat) ⟨3, 4, 5⟩ 1 (fun i => [i]) (threeToOneD ⟨1, 2, 3⟩ ⟨3, 4, 5⟩) = [43] ∧
    clearHaloCells (P := Nat) ⟨3, 4, 5⟩ 1 (fun i => [i]) (threeToOneD ⟨1, 2, 4⟩ ⟨3, 4, 5⟩) = [] := by
  have h := C03_clear_halo_exact (P := Nat) ⟨3, 4, 5⟩ 1 (by omega) (by simp) (by simp) (by simp) (fun i => [i])
  exact ⟨(h ⟨1, 2, 3⟩ (by simp [InGrid])).2 (by simp [IsHalo]), (h ⟨1, 2, 4⟩ (by simp [InGrid])).1 (by simp [IsHalo])⟩

end Verif
