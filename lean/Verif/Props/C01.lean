import Verif.Lemmas.Mapping
/-!
C01: cell numbering is a bijection between the cell coordinates of the grid and `0 .. numCells-1`.
-/
namespace Verif
open Spec

/-- Coordinate -> number -> coordinate is the identity and the number is a valid index of the cell array. -/
theorem C01_number_of_coordinate (dims c : V3 Nat) (h : InGrid c dims) :
    threeToOneD c dims < numCells dims ∧ oneToThreeD (threeToOneD c dims) dims = c :=
  ⟨flat_lt h, oneToThreeD_threeToOneD h⟩

/-- Number -> coordinate -> number is the identity and the coordinate is a cell of the grid. -/
theorem C01_coordinate_of_number (dims : V3 Nat) (i : Nat) (h : i < numCells dims) :
    InGrid (oneToThreeD i dims) dims ∧ threeToOneD (oneToThreeD i dims) dims = i :=
  ⟨(oneToThreeD_bounds h).1, (oneToThreeD_bounds h).2.1⟩

/-- No two different cells share a number. -/
theorem C01_number_injective (dims c c' : V3 Nat) (h : InGrid c dims) (h' : InGrid c' dims)
    (he : threeToOneD c dims = threeToOneD c' dims) : c = c' := flat_inj h h' he

/-- The running index is x, then y, then z: the documented memory order (row-major, x fastest). -/
theorem C01_number_order (dims c c' : V3 Nat) (h : InGrid c dims) (h' : InGrid c' dims) :
    threeToOneD c dims < threeToOneD c' dims ↔
      c.z < c'.z ∨ (c.z = c'.z ∧ (c.y < c'.y ∨ (c.y = c'.y ∧ c.x < c'.x))) := by
  have key : ∀ a b : V3 Nat, InGrid a dims → InGrid b dims →
      (a.z < b.z ∨ (a.z = b.z ∧ (a.y < b.y ∨ (a.y = b.y ∧ a.x < b.x)))) →
      threeToOneD a dims < threeToOneD b dims := by
    intro a b ha hb hab
    have step : ∀ p q u v n : Nat, u < n → v < n → p < q → p * n + u < q * n + v := by
      intro p q u v n hu _ hpq
      have : (p + 1) * n ≤ q * n := Nat.mul_le_mul_right _ hpq
      rw [Nat.add_mul] at this; omega
    unfold threeToOneD
    rcases hab with hz | ⟨hz, hy | ⟨hy, hx⟩⟩
    · exact step _ _ _ _ _ ha.1 hb.1 (step _ _ _ _ _ ha.2.1 hb.2.1 hz)
    · refine step _ _ _ _ _ ha.1 hb.1 ?_
      rw [hz]; omega
    · rw [hz, hy]; omega
  constructor
  · intro hlt
    by_contra hne
    have htot : (c'.z < c.z ∨ (c'.z = c.z ∧ (c'.y < c.y ∨ (c'.y = c.y ∧ c'.x < c.x)))) ∨ c = c' := by
      rcases c with ⟨x, y, z⟩; rcases c' with ⟨x', y', z'⟩
      simp only [V3.mk.injEq] at *
      omega
    rcases htot with hh | rfl
    · have := key c' c h' h hh; omega
    · omega
  · exact key c c' h h'

/-- The unsigned subtractions in `oneToThreeD` never underflow. -/
theorem C01_index_no_underflow (dims : V3 Nat) (i : Nat) (h : i < numCells dims) :
    i / (dims.x * dims.y) * dims.x * dims.y ≤ i ∧
    dims.x * ((oneToThreeD i dims).y + dims.y * (oneToThreeD i dims).z) ≤ i :=
  (oneToThreeD_bounds h).2.2

/-- Non-vacuity: a 3x4x5 grid. -/
example : InGrid ⟨2, 3, 4⟩ ⟨3, 4, 5⟩ ∧ threeToOneD ⟨2, 3, 4⟩ ⟨3, 4, 5⟩ = 59 ∧
    oneToThreeD 59 ⟨3, 4, 5⟩ = ⟨2, 3, 4⟩ ∧ 59 < numCells ⟨3, 4, 5⟩ := by decide

end Verif
