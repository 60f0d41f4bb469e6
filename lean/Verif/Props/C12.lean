import Verif.Lemmas.LCC04
import Verif.Props.C07
/-!
# C12 — lc_c04 covers every close pair exactly once and is race free

The applicability condition of the traversal, cells at least as long as the interaction length
(LCC04Traversal.h:60-67), is a hypothesis. (The code additionally demands more than 3 cells per axis; the theorems do
not need that.)
-/
namespace Verif
open Spec

/-- The calls of `lc_c04` are exactly those of `lc_c08`, each equally often, in some other order. -/
theorem lcC04_perm (dims : V3 Nat) (cl : V3 Rat) (il : Rat) (hil : 0 < il) (hx : il ≤ cl.x) (hy : il ≤ cl.y)
    (hz : il ≤ cl.z) : (lcC04 dims cl il).flatten.flatten.Perm (lcC08 dims cl il).flatten.flatten := by
  refine packOps_perm (c04_tiling dims).1 (fun c => ?_)
  rw [(c04_tiling dims).2, c08Bases_mem, overlap_one hil hx hy hz]
  rfl

/-- Every pair of different, touching cells that are not both halo cells is processed exactly once. -/
theorem C12_lc_c04_pair_exactly_once (dims : V3 Nat) (cl : V3 Rat) (il : Rat) (hw : Nat) (hil : 0 < il)
    (hx : il ≤ cl.x) (hy : il ≤ cl.y) (hz : il ≤ cl.z) (hhw : 1 ≤ hw)
    (a b : V3 Nat) (ha : InGrid a dims) (hb : InGrid b dims) (hab : a ≠ b)
    (hov : WithinOverlap ⟨1, 1, 1⟩ a b) (hh : ¬ (IsHalo hw dims a ∧ IsHalo hw dims b)) :
    timesPair (lcC04 dims cl il).flatten.flatten (threeToOneD a dims) (threeToOneD b dims) = 1 := by
  have ho := overlap_one hil hx hy hz
  have h := C07_lc_c08_pair_exactly_once dims cl il hw hil (by linarith) (by linarith) (by linarith)
    (by rw [ho]; simp only; omega) (by rw [ho]; simp only; omega) (by rw [ho]; simp only; omega) a b ha hb hab
    (by rw [ho]; exact hov)
    (by
      obtain ⟨h1, h2, h3⟩ := hov
      unfold cellGapSq axisGap
      rw [Nat.sub_eq_zero_of_le h1, Nat.sub_eq_zero_of_le h2, Nat.sub_eq_zero_of_le h3]
      simp; positivity) hh
  rw [← h]
  exact (lcC04_perm dims cl il hil hx hy hz).countP_eq _

/-- No pair of cells is processed twice. -/
theorem C12_lc_c04_pair_at_most_once (dims : V3 Nat) (cl : V3 Rat) (il : Rat) (hil : 0 < il)
    (hx : il ≤ cl.x) (hy : il ≤ cl.y) (hz : il ≤ cl.z)
    (a b : V3 Nat) (ha : InGrid a dims) (hb : InGrid b dims) (hab : a ≠ b) :
    timesPair (lcC04 dims cl il).flatten.flatten (threeToOneD a dims) (threeToOneD b dims) ≤ 1 := by
  unfold timesPair
  rw [(lcC04_perm dims cl il hil hx hy hz).countP_eq]
  exact C07_lc_c08_pair_at_most_once dims cl il hil (by linarith) (by linarith) (by linarith) a b ha hb hab

/-- Every cell that is not a halo cell is processed with itself exactly once. -/
theorem C12_lc_c04_self_exactly_once (dims : V3 Nat) (cl : V3 Rat) (il : Rat) (hw : Nat) (hil : 0 < il)
    (hx : il ≤ cl.x) (hy : il ≤ cl.y) (hz : il ≤ cl.z) (hhw : 1 ≤ hw)
    (a : V3 Nat) (ha : InGrid a dims) (hh : ¬ IsHalo hw dims a) :
    timesSelf (lcC04 dims cl il).flatten.flatten (threeToOneD a dims) = 1 := by
  have ho := overlap_one hil hx hy hz
  unfold timesSelf
  rw [(lcC04_perm dims cl il hil hx hy hz).countP_eq]
  exact C07_lc_c08_self_exactly_once dims cl il hw hil (by linarith) (by linarith) (by linarith)
    (by rw [ho]; simp only; omega) (by rw [ho]; simp only; omega) (by rw [ho]; simp only; omega) a ha hh

/-- No call leaves the cell array. -/
theorem C12_lc_c04_valid_cells (dims : V3 Nat) (cl : V3 Rat) (il : Rat) (hil : 0 < il)
    (hx : il ≤ cl.x) (hy : il ≤ cl.y) (hz : il ≤ cl.z) (op : CellOp) (hop : op ∈ (lcC04 dims cl il).flatten.flatten) :
    (∀ i ∈ touched op, 0 ≤ i ∧ i < numCells dims) ∧ (touched op).Nodup :=
  C07_lc_c08_valid_cells dims cl il hil (by linarith) (by linarith) (by linarith) op
    ((lcC04_perm dims cl il hil hx hy hz).mem_iff.1 hop)

/-- In every colour, two different packs, which may run at the same time, touch disjoint sets of cells. -/
theorem C12_lc_c04_race_free (dims : V3 Nat) (cl : V3 Rat) (il : Rat) (hil : 0 < il)
    (hx : il ≤ cl.x) (hy : il ≤ cl.y) (hz : il ≤ cl.z)
    (colour : List (List CellOp)) (hc : colour ∈ lcC04 dims cl il)
    (n m : Nat) (hn : n < colour.length) (hm : m < colour.length) (hnm : n ≠ m)
    (op₁ op₂ : CellOp) (h₁ : op₁ ∈ colour[n]) (h₂ : op₂ ∈ colour[m]) :
    ∀ i ∈ touched op₁, i ∉ touched op₂ := by
  have hp : C08Pos cl il := ⟨hil, by linarith, by linarith, by linarith⟩
  have ho := overlap_one hil hx hy hz
  unfold lcC04 packOps c04Packs at hc
  simp only [List.map_map, List.mem_map, List.mem_range] at hc
  obtain ⟨col, -, rfl⟩ := hc
  simp only [Function.comp, List.length_map] at hn hm
  simp only [Function.comp, List.getElem_map, List.mem_flatMap] at h₁ h₂
  obtain ⟨b, hb, hop⟩ := h₁
  obtain ⟨b', hb', hop'⟩ := h₂
  intro i hi hi'
  have k := (mem_c04Pack32.1 hb).2
  have k' := (mem_c04Pack32.1 hb').2
  simp only [c04End] at k k'
  obtain ⟨c, hcg, rfl, hcb⟩ := c08_footprint hp (by rw [ho]; simp only [V3.toNat]; omega) hop hi
  obtain ⟨c', hcg', e, hcb'⟩ := c08_footprint hp (by rw [ho]; simp only [V3.toNat]; omega) hop' hi'
  have := flat_inj hcg hcg' (by exact_mod_cast e)
  subst this
  rw [ho] at hcb hcb'
  exact c04_pack_disjoint (List.getElem_mem hn) (List.getElem_mem hm)
    (nodup_getElem_ne (nodup_c04PackPositions _ _) hn hm hnm) hb hb' hcb hcb'

-- 6×6×6 unit cells, interaction length 1
example : timesPair (lcC04 ⟨6, 6, 6⟩ ⟨1, 1, 1⟩ 1).flatten.flatten
    (threeToOneD ⟨1, 1, 1⟩ ⟨6, 6, 6⟩) (threeToOneD ⟨2, 2, 2⟩ ⟨6, 6, 6⟩) = 1 :=
  C12_lc_c04_pair_exactly_once ⟨6, 6, 6⟩ ⟨1, 1, 1⟩ 1 1 (by norm_num) (by norm_num) (by norm_num) (by norm_num)
    (by norm_num) ⟨1, 1, 1⟩ ⟨2, 2, 2⟩ (by simp [InGrid]) (by simp [InGrid]) (by decide)
    (by simp [WithinOverlap, axisDist]) (by simp [IsHalo])

end Verif
