import Verif.Lemmas.LCC18
import Verif.Props.C06
/-!
# C10 — lc_c18 runs without data races

Base cells of one colour run in parallel; colours are separated by a barrier.
-/
namespace Verif
open Spec

/-- In every colour, the `n`-th and `m`-th base cell (n ≠ m) touch disjoint sets of cells. -/
theorem C10_lc_c18_race_free (dims : V3 Nat) (cl : V3 Rat) (il : Rat)
    (hil : 0 < il) (hx : 0 < cl.x) (hy : 0 < cl.y) (hz : 0 < cl.z)
    (hdx : 2 * (overlapOf il cl).x + 1 ≤ dims.x) (hdy : 2 * (overlapOf il cl).y + 1 ≤ dims.y)
    (hdz : 2 * (overlapOf il cl).z + 1 ≤ dims.z)
    (colour : List (List CellOp)) (hc : colour ∈ lcC18 dims cl il)
    (n m : Nat) (hn : n < colour.length) (hm : m < colour.length) (hnm : n ≠ m)
    (op₁ op₂ : CellOp) (h₁ : op₁ ∈ colour[n]) (h₂ : op₂ ∈ colour[m]) :
    ∀ i ∈ touched op₁, i ∉ touched op₂ := by
  have h : C18Dims dims cl il := ⟨⟨hil, hx, hy, hz⟩, hdx, hdy, hdz⟩
  obtain ⟨o1, o2, o3⟩ := h.pos.ov
  set ov := (overlapOf il cl).toNat with hov
  refine colour_race_free (F := fun b i => ∃ c : V3 Nat, InGrid c dims ∧ i = (threeToOneD c dims : Int) ∧
    (b.x ≤ c.x + ov.x ∧ c.x ≤ b.x + ov.x) ∧ (b.y ≤ c.y + ov.y ∧ c.y ≤ b.y + ov.y) ∧ (b.z ≤ c.z ∧ c.z ≤ b.z + ov.z))
    ?_ ?_ hc hn hm hnm h₁ h₂
  · intro col hcol b hb op hop i hi
    have hb' : b ∈ (c18Bases false dims (overlapOf il cl).toNat).flatten := List.mem_flatten.2 ⟨col, hcol, hb⟩
    simp only [c18ProcessBaseCell, List.mem_map] at hop
    obtain ⟨⟨x, y, z⟩, ht, rfl⟩ := hop
    have hq : (b, x, y, z) ∈ c18Q dims cl il := mem_basePairsD.2 ⟨hb', ht⟩
    have hgf := (c18_coded h).gridf _ hq
    have hgg := (c18_coded h).gridg _ hq
    rw [mem_c18Q h] at hq
    simp only [baseCellOp] at hi
    rw [flat_shift (by omega) (by omega) (by omega)] at hi
    have kA : (b.x ≤ b.x + ov.x ∧ b.x ≤ b.x + ov.x) ∧ (b.y ≤ b.y + ov.y ∧ b.y ≤ b.y + ov.y) ∧ (b.z ≤ b.z ∧ b.z ≤ b.z + ov.z) := by
      omega
    split_ifs at hi with h
    · simp only [touched, List.mem_singleton] at hi
      exact ⟨b, hgf, hi, kA⟩
    · simp only [touched, List.mem_cons, List.not_mem_nil, or_false] at hi
      rcases hi with hi | hi
      · exact ⟨b, hgf, hi, kA⟩
      · refine ⟨_, hgg, hi, ?_⟩
        simp only [shift, hov, V3.toNat]
        omega
  · rintro col hcol a ha b hb hab i ⟨c, hcg, rfl, k1, k2, k3⟩ ⟨c', hcg', e, k1', k2', k3'⟩
    have := flat_inj hcg hcg' (by exact_mod_cast e)
    subst this
    obtain ⟨f1, f2, f3⟩ := C06_same_color_far_apart _ _ _ col hcol a b ha hb
    simp only [← hov] at f1 f2 f3
    apply hab
    rcases a with ⟨ax, ay, az⟩
    rcases b with ⟨bx, by', bz⟩
    simp only [V3.mk.injEq] at *
    omega

-- a 6×6×6 grid of unit cells: the first colour has 12 base cells that may run concurrently
example : ((lcC18 ⟨6, 6, 6⟩ ⟨1, 1, 1⟩ 1).headD []).length = 12 := by
  have : overlapOf 1 ⟨1, 1, 1⟩ = ⟨1, 1, 1⟩ := by simp [overlapOf]
  simp only [lcC18, this]
  decide +kernel

end Verif
