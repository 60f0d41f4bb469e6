import Verif.Lemmas.CellGeometry
import Verif.Lemmas.LCC01
/-!
# C11 — lc_c01 (no Newton-3) processes every ordered pair of close cells exactly once, without write conflicts

`lc_c01` refuses Newton-3 (LCC01Traversal.h:125-128), so a call `.pair i j` updates only cell `i`.
-/
namespace Verif
open Spec

/-- Every cell `a` that is not a halo cell is processed exactly once with every other cell `b` within the overlap
whose box comes within the interaction length (halo cells included). -/
theorem C11_lc_c01_ordered_pair_exactly_once (dims : V3 Nat) (cl : V3 Rat) (il : Rat) (hw : Nat)
    (hil : 0 < il) (hx : 0 < cl.x) (hy : 0 < cl.y) (hz : 0 < cl.z)
    (hwx : (overlapOf il cl).x ≤ hw) (hwy : (overlapOf il cl).y ≤ hw) (hwz : (overlapOf il cl).z ≤ hw)
    (hdx : 2 * (overlapOf il cl).x + 1 ≤ dims.x) (hdy : 2 * (overlapOf il cl).y + 1 ≤ dims.y)
    (hdz : 2 * (overlapOf il cl).z + 1 ≤ dims.z)
    (a b : V3 Nat) (ha : InGrid a dims) (hb : InGrid b dims) (hab : a ≠ b) (hh : ¬ IsHalo hw dims a)
    (hov : WithinOverlap (overlapOf il cl).toNat a b) (hgap : cellGapSq cl a b ≤ il * il) :
    timesOrdered (lcC01 dims cl il).flatten.flatten (threeToOneD a dims) (threeToOneD b dims) = 1 := by
  have h : C18Dims dims cl il := ⟨⟨hil, hx, hy, hz⟩, hdx, hdy, hdz⟩
  exact (c01_coded h).timesOrdered ha hb hab (c01_exists h hwx hwy hwz hh hov hgap) (c01_unique h)

/-- Every cell that is not a halo cell is processed with itself exactly once. -/
theorem C11_lc_c01_self_exactly_once (dims : V3 Nat) (cl : V3 Rat) (il : Rat) (hw : Nat)
    (hil : 0 < il) (hx : 0 < cl.x) (hy : 0 < cl.y) (hz : 0 < cl.z)
    (hwx : (overlapOf il cl).x ≤ hw) (hwy : (overlapOf il cl).y ≤ hw) (hwz : (overlapOf il cl).z ≤ hw)
    (hdx : 2 * (overlapOf il cl).x + 1 ≤ dims.x) (hdy : 2 * (overlapOf il cl).y + 1 ≤ dims.y)
    (hdz : 2 * (overlapOf il cl).z + 1 ≤ dims.z)
    (a : V3 Nat) (ha : InGrid a dims) (hh : ¬ IsHalo hw dims a) :
    timesSelf (lcC01 dims cl il).flatten.flatten (threeToOneD a dims) = 1 := by
  have h : C18Dims dims cl il := ⟨⟨hil, hx, hy, hz⟩, hdx, hdy, hdz⟩
  refine (c01_coded h).timesSelf_one ha ?_ (c01_unique h)
  exact c01_exists h hwx hwy hwz hh (by simp [WithinOverlap, axisDist])
    (by simp [cellGapSq, axisGap, axisDist]; positivity)

/-- No call leaves the cell array, and a pair call gets two different cells. -/
theorem C11_lc_c01_valid_cells (dims : V3 Nat) (cl : V3 Rat) (il : Rat)
    (hil : 0 < il) (hx : 0 < cl.x) (hy : 0 < cl.y) (hz : 0 < cl.z)
    (hdx : 2 * (overlapOf il cl).x + 1 ≤ dims.x) (hdy : 2 * (overlapOf il cl).y + 1 ≤ dims.y)
    (hdz : 2 * (overlapOf il cl).z + 1 ≤ dims.z)
    (op : CellOp) (hop : op ∈ (lcC01 dims cl il).flatten.flatten) :
    (∀ i ∈ touched op, 0 ≤ i ∧ i < numCells dims) ∧ (touched op).Nodup :=
  (c01_coded ⟨⟨hil, hx, hy, hz⟩, hdx, hdy, hdz⟩).valid hop

/-- Two different base cells never write to the same cell, although all base cells may run concurrently. -/
theorem C11_lc_c01_no_write_conflict (dims : V3 Nat) (cl : V3 Rat) (il : Rat)
    (hil : 0 < il) (hx : 0 < cl.x) (hy : 0 < cl.y) (hz : 0 < cl.z)
    (hdx : 2 * (overlapOf il cl).x + 1 ≤ dims.x) (hdy : 2 * (overlapOf il cl).y + 1 ≤ dims.y)
    (hdz : 2 * (overlapOf il cl).z + 1 ≤ dims.z)
    (n m : Nat) (hn : n < (lcC01 dims cl il).flatten.length) (hm : m < (lcC01 dims cl il).flatten.length) (hnm : n ≠ m)
    (op₁ op₂ : CellOp) (h₁ : op₁ ∈ (lcC01 dims cl il).flatten[n]) (h₂ : op₂ ∈ (lcC01 dims cl il).flatten[m]) :
    written op₁ ≠ written op₂ := by
  have h : C18Dims dims cl il := ⟨⟨hil, hx, hy, hz⟩, hdx, hdy, hdz⟩
  obtain ⟨o1, o2, o3⟩ := h.pos.ov
  have hfl : (lcC01 dims cl il).flatten =
      (c01Bases dims (overlapOf il cl).toNat).flatten.map (c01ProcessBaseCell dims cl il) := by
    unfold lcC01; rw [← List.map_flatten]
  simp only [hfl, List.getElem_map, List.length_map] at hn hm h₁ h₂
  have hgrid : ∀ c ∈ (c01Bases dims (overlapOf il cl).toNat).flatten, InGrid c dims := by
    intro c hc
    rw [c01Bases, mem_colorTraversal (by simp) (by simp) (by simp)] at hc
    simp only [InRange, V3.sub] at hc
    unfold InGrid; omega
  have hw : ∀ b op, op ∈ c01ProcessBaseCell dims cl il b → written op = (threeToOneD b dims : Int) := by
    intro b op hop
    simp only [c01ProcessBaseCell, List.mem_map] at hop
    obtain ⟨⟨x, y, z⟩, -, rfl⟩ := hop
    simp only [baseCellOp]; split_ifs <;> rfl
  rw [hw _ _ h₁, hw _ _ h₂]
  intro he
  have := flat_inj (hgrid _ (List.getElem_mem hn)) (hgrid _ (List.getElem_mem hm)) (by exact_mod_cast he)
  exact hnm ((List.Nodup.getElem_inj_iff (nodup_colorTraversal _ _ _)).1 this)

-- a 4×4×5 grid of unit cells, interaction length 1, one halo layer
example : timesOrdered (lcC01 ⟨4, 4, 5⟩ ⟨1, 1, 1⟩ 1).flatten.flatten
    (threeToOneD ⟨1, 1, 1⟩ ⟨4, 4, 5⟩) (threeToOneD ⟨0, 0, 0⟩ ⟨4, 4, 5⟩) = 1 :=
  C11_lc_c01_ordered_pair_exactly_once ⟨4, 4, 5⟩ ⟨1, 1, 1⟩ 1 1 (by norm_num) (by norm_num) (by norm_num) (by norm_num)
    (by simp [overlapOf]) (by simp [overlapOf]) (by simp [overlapOf])
    (by simp [overlapOf]) (by simp [overlapOf]) (by simp [overlapOf]) ⟨1, 1, 1⟩ ⟨0, 0, 0⟩
    (by simp [InGrid]) (by simp [InGrid]) (by decide) (by simp [IsHalo])
    (by simp [WithinOverlap, overlapOf, axisDist, V3.toNat])
    (by simp [cellGapSq, axisGap, axisDist])

/-- End to end, in terms of positions: a position in the box is processed exactly once, as the updated side, with
every position within the interaction length. -/
theorem C11_lc_c01_positions (bMin bMax : V3 Rat) (il csf : Rat) (hbox : GoodBox bMin bMax il csf) (p q : V3 Rat)
    (hpq : distSq p q ≤ il * il) (hin : InBox p bMin bMax) :
    let b := CellBlock.rebuild id bMin bMax il csf
    let ops := (lcC01 b.dims b.cellLength il).flatten.flatten
    let cp := b.indexOfPosition id p
    let cq := b.indexOfPosition id q
    (cp ≠ cq → timesOrdered ops (threeToOneD cp b.dims) (threeToOneD cq b.dims) = 1) ∧
    (cp = cq → timesSelf ops (threeToOneD cp b.dims) = 1) := by
  intro b ops cp cq
  obtain ⟨hx, hy, hz⟩ := hbox.cl_pos
  obtain ⟨ox, oy, oz⟩ := hbox.overlap_le
  obtain ⟨dx, dy, dz⟩ : 2 * cellsPerInteractionLength id csf + 1 ≤ b.dims.x ∧
      2 * cellsPerInteractionLength id csf + 1 ≤ b.dims.y ∧ 2 * cellsPerInteractionLength id csf + 1 ≤ b.dims.z := hbox.dims_ge
  obtain ⟨h1, h2⟩ := hbox.close hpq
  constructor
  · intro hne
    exact C11_lc_c01_ordered_pair_exactly_once _ _ _ (cellsPerInteractionLength id csf) hbox.ilPos hx hy hz ox oy oz
      (by omega) (by omega) (by omega) _ _ (hbox.inGrid p) (hbox.inGrid q) hne (hbox.not_halo hin) h1 h2
  · intro he
    exact C11_lc_c01_self_exactly_once _ _ _ (cellsPerInteractionLength id csf) hbox.ilPos hx hy hz ox oy oz
      (by omega) (by omega) (by omega) _ (hbox.inGrid p) (hbox.not_halo hin)

end Verif
