import Verif.Lemmas.LCC08
import Verif.Lemmas.LCC01
import Verif.Lemmas.CellGeometry
import Verif.Lemmas.CellFunctor
/-! The sorting directions of the linked-cells traversals. -/
namespace Verif
open Spec

theorem offset_dir {cl : V3 Rat} {b c : V3 Nat} {x y z : Int} (hx : (b.x : Int) + x = c.x) (hy : (b.y : Int) + y = c.y)
    (hz : (b.z : Int) + z = c.z) (hbc : b ≠ c) : offsetSortDir cl x y z = cellDirection cl b c := by
  rcases b with ⟨b1, b2, b3⟩
  rcases c with ⟨c1, c2, c3⟩
  simp only at hx hy hz
  have h1 : x = (c1 : Int) - b1 := by omega
  have h2 : y = (c2 : Int) - b2 := by omega
  have h3 : z = (c3 : Int) - b3 := by omega
  unfold offsetSortDir cellDirection
  rw [if_neg ?_]
  · subst h1 h2 h3; push_cast; rfl
  · rintro ⟨e1, e2, e3⟩
    apply hbc
    simp only [V3.mk.injEq]
    omega

theorem c08_dir {cl : V3 Rat} {ov : V3 Int} {b A B : V3 Nat} {x y z : Int} {d : C08Dir}
    (h : c08Match ov (b, x, y, z, d) A B) (hAB : A ≠ B) : c08SortDir ov cl x y z d = cellDirection cl A B := by
  obtain ⟨⟨h1, h2, h3⟩, h4, h5, h6⟩ := h
  simp only at h1 h2 h3 h4 h5 h6
  have e1 : x - d.maskXY.1 * ov.x = (B.x : Int) - A.x := by omega
  have e2 : y - d.maskXY.2 * ov.y = (B.y : Int) - A.y := by omega
  have e3 : 0 - z = (B.z : Int) - A.z := by omega
  have r1 : (x : Rat) - d.maskXY.1 * ov.x = (B.x : Rat) - A.x := by exact_mod_cast e1
  have r2 : (y : Rat) - d.maskXY.2 * ov.y = (B.y : Rat) - A.y := by exact_mod_cast e2
  have r3 : (0 : Rat) - z = (B.z : Rat) - A.z := by exact_mod_cast e3
  unfold c08SortDir cellDirection
  simp only
  rw [r1, r2, r3, if_neg]
  rintro ⟨k1, k2, k3⟩
  apply hAB
  rcases A with ⟨a1, a2, a3⟩
  rcases B with ⟨b1, b2, b3⟩
  simp only [V3.mk.injEq] at *
  refine ⟨?_, ?_, ?_⟩
  · have : (a1 : Rat) = b1 := by linarith
    exact_mod_cast this
  · have : (a2 : Rat) = b2 := by linarith
    exact_mod_cast this
  · have : (a3 : Rat) = b3 := by linarith
    exact_mod_cast this

theorem lcC08_dir {dims : V3 Nat} {cl : V3 Rat} {il : Rat} (hp : C08Pos cl il) {a b : V3 Nat} (ha : InGrid a dims)
    (hb : InGrid b dims) {dir : V3 Rat}
    (hop : CellOp.pair (threeToOneD a dims) (threeToOneD b dims) dir ∈ (lcC08 dims cl il).flatten.flatten) :
    dir = cellDirection cl a b := by
  rw [lcC08_flatten] at hop
  obtain ⟨⟨c, x, y, z, d⟩, hq, he⟩ := List.mem_map.1 hop
  unfold cellOpOf at he
  simp only at he
  split at he
  · cases he
  · rename_i hne
    simp only [CellOp.pair.injEq] at he
    obtain ⟨h1, h2, h3⟩ := he
    have hm := (c08Match_iff hp hq ha hb).1 ⟨h1, h2⟩
    rw [← h3]
    have hab : a ≠ b := fun e => hne (by rw [h1, h2, e])
    exact c08_dir hm hab

theorem lcC18_dir {dims : V3 Nat} {cl : V3 Rat} {il : Rat} (h : C18Dims dims cl il) {a b : V3 Nat} (ha : InGrid a dims)
    (hb : InGrid b dims) {dir : V3 Rat}
    (hop : CellOp.pair (threeToOneD a dims) (threeToOneD b dims) dir ∈ (lcC18 dims cl il).flatten.flatten) :
    dir = cellDirection cl a b := by
  simp only [lcC18, List.mem_flatten, List.mem_map] at hop
  obtain ⟨_, ⟨_, ⟨col, hcol, rfl⟩, hl⟩, hop⟩ := hop
  obtain ⟨c, hc, rfl⟩ := List.mem_map.1 hl
  simp only [c18ProcessBaseCell, List.mem_map] at hop
  obtain ⟨⟨x, y, z⟩, ht, he⟩ := hop
  have hq : (c, x, y, z) ∈ c18Q dims cl il := mem_basePairsD.2 ⟨List.mem_flatten.2 ⟨col, hcol, hc⟩, ht⟩
  have hgf := (c18_coded h).gridf _ hq
  have hgg := (c18_coded h).gridg _ hq
  rw [mem_c18Q h] at hq
  simp only [baseCellOp] at he
  rw [flat_shift (by omega) (by omega) (by omega)] at he
  split at he
  · cases he
  · rename_i hne
    simp only [CellOp.pair.injEq] at he
    obtain ⟨h1, h2, h3⟩ := he
    have e1 : c = a := (flat_iff hgf ha).1 h1
    have e2 : shift c (x, y, z) = b := (flat_iff hgg hb).1 h2
    rw [← h3]
    have hab : c ≠ b := fun e => hne (by rw [e2, ← e])
    rw [← e1]
    refine offset_dir ?_ ?_ ?_ hab <;> rw [← e2] <;> simp only [shift] <;> omega

theorem lcC01_dir {dims : V3 Nat} {cl : V3 Rat} {il : Rat} (h : C18Dims dims cl il) {a b : V3 Nat} (ha : InGrid a dims)
    (hb : InGrid b dims) {dir : V3 Rat}
    (hop : CellOp.pair (threeToOneD a dims) (threeToOneD b dims) dir ∈ (lcC01 dims cl il).flatten.flatten) :
    dir = cellDirection cl a b := by
  simp only [lcC01, List.mem_flatten, List.mem_map] at hop
  obtain ⟨_, ⟨_, ⟨col, hcol, rfl⟩, hl⟩, hop⟩ := hop
  obtain ⟨c, hc, rfl⟩ := List.mem_map.1 hl
  simp only [c01ProcessBaseCell, List.mem_map] at hop
  obtain ⟨⟨x, y, z⟩, ht, he⟩ := hop
  have hq : (c, x, y, z) ∈ c01Q dims cl il := mem_basePairs.2 ⟨List.mem_flatten.2 ⟨col, hcol, hc⟩, ht⟩
  have hgf := (c01_coded h).gridf _ hq
  have hgg := (c01_coded h).gridg _ hq
  rw [mem_c01Q h] at hq
  obtain ⟨o1, o2, o3⟩ := h.pos.ov
  simp only [baseCellOp] at he
  rw [flat_shift (by omega) (by omega) (by omega)] at he
  split at he
  · cases he
  · rename_i hne
    simp only [CellOp.pair.injEq] at he
    obtain ⟨h1, h2, h3⟩ := he
    have e1 : c = a := (flat_iff hgf ha).1 h1
    have e2 : shift c (x, y, z) = b := (flat_iff hgg hb).1 h2
    rw [← h3]
    have hab : c ≠ b := fun e => hne (by rw [e2, ← e])
    rw [← e1]
    refine offset_dir ?_ ?_ ?_ hab <;> rw [← e2] <;> simp only [shift] <;> omega

/-- The cell index is monotone in the position. -/
theorem index_mono {bMin bMax il csf : Rat} (hb : bMin < bMax) (hc : 0 < csf) {p q : Rat} (hpq : p ≤ q) :
    (AxisBlock.rebuild id bMin bMax il csf).indexOfPosition id p ≤
      (AxisBlock.rebuild id bMin bMax il csf).indexOfPosition id q := by
  have h1 := exact_index (il := il) hb hc p
  have h2 := exact_index (il := il) hb hc q
  simp only at h1 h2
  have hl := cellLength_pos (il := il) (csf := csf) hb
  have : ⌊(p - bMin) / (AxisBlock.rebuild id bMin bMax il csf).cellLength⌋ ≤
      ⌊(q - bMin) / (AxisBlock.rebuild id bMin bMax il csf).cellLength⌋ := by
    apply Int.floor_le_floor
    rw [div_le_div_iff_of_pos_right hl]
    linarith
  omega

/-- One axis: the position difference has the sign of the cell index difference. -/
theorem axis_ahead {bMin bMax il csf : Rat} (hb : bMin < bMax) (hc : 0 < csf) (p q : Rat) :
    0 ≤ (q - p) * ((((AxisBlock.rebuild id bMin bMax il csf).indexOfPosition id q : Rat) -
      (AxisBlock.rebuild id bMin bMax il csf).indexOfPosition id p) * (AxisBlock.rebuild id bMin bMax il csf).cellLength) := by
  have hl := cellLength_pos (il := il) (csf := csf) hb
  rcases le_total p q with h | h
  · have h1 := index_mono (il := il) hb hc h
    have h2 : ((AxisBlock.rebuild id bMin bMax il csf).indexOfPosition id p : Rat) ≤
      (AxisBlock.rebuild id bMin bMax il csf).indexOfPosition id q := by exact_mod_cast h1
    have h3 : 0 ≤ q - p := by linarith
    have h4 : 0 ≤ ((AxisBlock.rebuild id bMin bMax il csf).indexOfPosition id q : Rat) -
      (AxisBlock.rebuild id bMin bMax il csf).indexOfPosition id p := by linarith
    positivity
  · have h1 := index_mono (il := il) hb hc h
    have h2 : ((AxisBlock.rebuild id bMin bMax il csf).indexOfPosition id q : Rat) ≤
      (AxisBlock.rebuild id bMin bMax il csf).indexOfPosition id p := by exact_mod_cast h1
    have h3 : 0 ≤ p - q := by linarith
    have h4 : 0 ≤ ((AxisBlock.rebuild id bMin bMax il csf).indexOfPosition id p : Rat) -
      (AxisBlock.rebuild id bMin bMax il csf).indexOfPosition id q := by linarith
    have h5 := mul_nonneg h3 (mul_nonneg h4 hl.le)
    nlinarith

/-- A small displacement cannot put particles far behind. -/
theorem not_far_behind {p q p0 q0 d : V3 Rat} {c : Rat} (h0 : p0.dot d ≤ q0.dot d)
    (hp : 4 * distSq p p0 ≤ c * c) (hq : 4 * distSq q q0 ≤ c * c) (hlt : q.dot d < p.dot d) :
    (p.dot d - q.dot d) ^ 2 ≤ c * c * d.dot d := by
  have hd := V3.dot_self_nonneg d
  have h1 := V3.dot_sub_sq_le p p0 d
  have h2 := V3.dot_sub_sq_le q q0 d
  have h3 : d.dot d * distSq p p0 ≤ d.dot d * (c * c / 4) := mul_le_mul_of_nonneg_left (by linarith) hd
  have h4 : d.dot d * distSq q q0 ≤ d.dot d * (c * c / 4) := mul_le_mul_of_nonneg_left (by linarith) hd
  set u := p.dot d - p0.dot d
  set v := q.dot d - q0.dot d
  have h5 : p.dot d - q.dot d ≤ u - v := by simp only [u, v]; linarith
  have h6 : 0 ≤ p.dot d - q.dot d := by linarith
  have h7 : (p.dot d - q.dot d) ^ 2 ≤ (u - v) ^ 2 := by nlinarith
  nlinarith [sq_nonneg (u + v)]

end Verif
