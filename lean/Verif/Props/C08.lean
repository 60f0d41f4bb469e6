import Verif.Lemmas.LCC08
import Verif.Props.C06
/-!
# C08 — lc_c08 runs without data races

The traversal runs the base cells of one colour in parallel (an OpenMP `for` with a barrier after each colour), so it
is race free iff two different base cells of one colour never touch a common cell.
-/
namespace Verif
open Spec

/-- In every colour, the `n`-th and `m`-th base cell (n ≠ m), which may run at the same time on different threads,
touch disjoint sets of cells. -/
theorem C08_lc_c08_race_free (dims : V3 Nat) (cl : V3 Rat) (il : Rat)
    (hil : 0 < il) (hx : 0 < cl.x) (hy : 0 < cl.y) (hz : 0 < cl.z)
    (colour : List (List CellOp)) (hc : colour ∈ lcC08 dims cl il)
    (n m : Nat) (hn : n < colour.length) (hm : m < colour.length) (hnm : n ≠ m)
    (op₁ op₂ : CellOp) (h₁ : op₁ ∈ colour[n]) (h₂ : op₂ ∈ colour[m]) :
    ∀ i ∈ touched op₁, i ∉ touched op₂ := by
  have hp : C08Pos cl il := ⟨hil, hx, hy, hz⟩
  obtain ⟨o1, o2, o3⟩ := hp.ov
  set ov := (overlapOf il cl).toNat with hov
  refine colour_race_free (F := fun b i => ∃ c : V3 Nat, InGrid c dims ∧ i = (threeToOneD c dims : Int) ∧
    (b.x ≤ c.x ∧ c.x ≤ b.x + ov.x) ∧ (b.y ≤ c.y ∧ c.y ≤ b.y + ov.y) ∧ (b.z ≤ c.z ∧ c.z ≤ b.z + ov.z))
    ?_ ?_ hc hn hm hnm h₁ h₂
  · intro col hcol b hb op hop i hi
    have hb' : b ∈ (c08Bases dims (overlapOf il cl).toNat).flatten := List.mem_flatten.2 ⟨col, hcol, hb⟩
    simp only [c08ProcessBaseCell, c08Offsets, List.mem_map] at hop
    obtain ⟨-, ⟨⟨x, y, z, d⟩, ht, rfl⟩, rfl⟩ := hop
    have hq : (b, x, y, z, d) ∈ c08Q dims cl il := mem_basePairs.2 ⟨hb', ht⟩
    obtain ⟨h1, h2, h3, h4, h5, h6⟩ := c08Q_bounds hp hq
    obtain ⟨e1, e2⟩ := c08_cells dims cl il b x y z d
    obtain ⟨A, hA, a1, a2, a3, fA⟩ := flatInt_bounds h1 h2 h3
    obtain ⟨B, hB, b1, b2, b3, fB⟩ := flatInt_bounds h4 h5 h6
    rw [fA] at e1; rw [fB] at e2
    rw [mem_c08Indices] at ht
    have kA : (b.x ≤ A.x ∧ A.x ≤ b.x + ov.x) ∧ (b.y ≤ A.y ∧ A.y ≤ b.y + ov.y) ∧ (b.z ≤ A.z ∧ A.z ≤ b.z + ov.z) := by
      simp only [hov, V3.toNat]
      cases d <;> simp only [C08Dir.maskXY] at a1 a2 <;> omega
    have kB : (b.x ≤ B.x ∧ B.x ≤ b.x + ov.x) ∧ (b.y ≤ B.y ∧ B.y ≤ b.y + ov.y) ∧ (b.z ≤ B.z ∧ B.z ≤ b.z + ov.z) := by
      simp only [hov, V3.toNat]
      omega
    simp only [cellOpOf, e1, e2] at hi
    split_ifs at hi with h
    · simp only [touched, List.mem_singleton] at hi
      exact ⟨A, hA, hi, kA⟩
    · simp only [touched, List.mem_cons, List.not_mem_nil, or_false] at hi
      rcases hi with hi | hi
      · exact ⟨A, hA, hi, kA⟩
      · exact ⟨B, hB, hi, kB⟩
  · rintro col hcol a ha b hb hab i ⟨c, hcg, rfl, k1, k2, k3⟩ ⟨c', hcg', e, k1', k2', k3'⟩
    have := flat_inj hcg hcg' (by exact_mod_cast e)
    subst this
    obtain ⟨f1, f2, f3⟩ := C06_same_color_far_apart _ _ _ col hcol a b ha hb
    simp only [← hov] at f1 f2 f3
    apply hab
    rcases a with ⟨ax, ay, az⟩
    rcases b with ⟨bx, by', bz⟩
    simp only [V3.mk.injEq] at *
    omega

-- a 6×6×6 grid of unit cells: the first colour has 27 base cells that may run concurrently
example : ((lcC08 ⟨6, 6, 6⟩ ⟨1, 1, 1⟩ 1).headD []).length = 27 := by
  have : overlapOf 1 ⟨1, 1, 1⟩ = ⟨1, 1, 1⟩ := by simp [overlapOf]
  simp only [lcC08, this]
  decide +kernel

end Verif
