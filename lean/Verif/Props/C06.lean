import Verif.Lemmas.ColorTraversal
/-!
C06: colour traversals invoke the loop body exactly once for every cell of the iteration range.
-/
namespace Verif
open Spec

/-- For any positive stride and any offset, the colours together contain every cell `c` with
`offset ≤ c < end` (componentwise) exactly once, and no other cell. -/
theorem C06_color_traversal_exactly_once (fin stride offset : V3 Nat)
    (hx : 0 < stride.x) (hy : 0 < stride.y) (hz : 0 < stride.z) :
    ExactlyOnce (colorTraversal fin stride offset).flatten
      (fun c => (offset.x ≤ c.x ∧ c.x < fin.x) ∧ (offset.y ≤ c.y ∧ c.y < fin.y) ∧ (offset.z ≤ c.z ∧ c.z < fin.z)) :=
  exactlyOnce_of_nodup (nodup_colorTraversal _ _ _) (fun _ => mem_colorTraversal hx hy hz)

/-- Two loop-body invocations of one colour are, per axis, equal or at least one stride apart. -/
theorem C06_same_color_far_apart (fin stride offset : V3 Nat) (colour : List (V3 Nat))
    (hc : colour ∈ colorTraversal fin stride offset) (a b : V3 Nat) (ha : a ∈ colour) (hb : b ∈ colour) :
    (a.x = b.x ∨ a.x + stride.x ≤ b.x ∨ b.x + stride.x ≤ a.x) ∧
    (a.y = b.y ∨ a.y + stride.y ≤ b.y ∨ b.y + stride.y ≤ a.y) ∧
    (a.z = b.z ∨ a.z + stride.z ≤ b.z ∨ b.z + stride.z ≤ a.z) := by
  obtain ⟨ra, rb, h1, h2, h3⟩ := color_residues hc ha hb
  have key : ∀ {p q s : Nat}, p % s = q % s → p < q → p + s ≤ q := by
    intro p q s h hlt
    have hq := Nat.div_add_mod q s
    have hp := Nat.div_add_mod p s
    have hd : p / s < q / s := by
      by_contra hge
      have : q / s ≤ p / s := by omega
      have := Nat.mul_le_mul_left s this
      omega
    have := Nat.mul_le_mul_left s hd
    rw [Nat.mul_succ] at this; omega
  have axis : ∀ {a b o s : Nat}, o ≤ a → o ≤ b → (a - o) % s = (b - o) % s → (a = b ∨ a + s ≤ b ∨ b + s ≤ a) := by
    intro a b o s hoa hob h
    rcases Nat.lt_trichotomy a b with hab | hab | hab
    · have := key h (by omega); omega
    · exact Or.inl hab
    · have := key h.symm (by omega); omega
  exact ⟨axis ra.1.1 rb.1.1 h1, axis ra.2.1.1 rb.2.1.1 h2, axis ra.2.2.1 rb.2.2.1 h3⟩

/-- Non-vacuity: a 5x4x3 range with stride 2 has 60 invocations in 8 colours. -/
example : (colorTraversal ⟨5, 4, 3⟩ ⟨2, 2, 2⟩ ⟨0, 0, 0⟩).length = 8 ∧
    (colorTraversal ⟨5, 4, 3⟩ ⟨2, 2, 2⟩ ⟨0, 0, 0⟩).flatten.length = 60 := by decide +kernel

end Verif
