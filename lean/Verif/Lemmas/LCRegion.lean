import Verif.Lemmas.LCIter
import Verif.Lemmas.CellGeometry
/-! Region iteration over a linked-cells container. -/
namespace Verif
open Spec

theorem axis_index_mono {bMin bMax il csf p q : Rat} (hb : bMin < bMax) (hc : 0 < csf) (h : p ≤ q) :
    (AxisBlock.rebuild id bMin bMax il csf).indexOfPosition id p ≤ (AxisBlock.rebuild id bMin bMax il csf).indexOfPosition id q := by
  have h1 := exact_index (il := il) hb hc p
  have h2 := exact_index (il := il) hb hc q
  have hl := cellLength_pos (il := il) (csf := csf) hb
  simp only at h1 h2
  have hf : ⌊(p - bMin) / (AxisBlock.rebuild id bMin bMax il csf).cellLength⌋ ≤
      ⌊(q - bMin) / (AxisBlock.rebuild id bMin bMax il csf).cellLength⌋ := by
    apply Int.floor_le_floor
    apply div_le_div_of_nonneg_right _ hl.le
    linarith
  omega

/-- The cell of a position near the region overlaps the enlarged region (one axis). -/
theorem region_axis {bMin bMax il csf pos old m rMin rMax : Rat} (hb : bMin < bMax) (hil : 0 < il) (hc : 0 < csf)
    (hbox : il ≤ bMax - bMin) (hm : |pos - old| ≤ m) (h1 : rMin ≤ pos) (h2 : pos < rMax) (h3 : bMin - il ≤ rMin)
    (h4 : rMax ≤ bMax + il) :
    let a := AxisBlock.rebuild id bMin bMax il csf
    (a.boundingBox id (a.indexOfPosition id old)).2 > rMin - m ∧ rMax + m > (a.boundingBox id (a.indexOfPosition id old)).1 ∧
    rMin - m ≤ old ∧ old ≤ rMax + m := by
  intro a
  have hl : 0 < a.cellLength := cellLength_pos hb
  have hge : il ≤ (a.cpil : Rat) * a.cellLength := cellLength_ge hb hil hc hbox
  have hi := exact_index (il := il) hb hc old
  simp only at hi
  have hn1 := cpd_pos id bMin bMax il csf
  have hdim : a.dim = cellsPerDim id bMin bMax il csf + 2 * a.cpil := rfl
  have hcl : a.cellLength = (bMax - bMin) / cellsPerDim id bMin bMax il csf := rfl
  have hlt : a.indexOfPosition id old < a.dim := by
    change (a.indexOfPosition id old : Int) = _ at hi
    have : a.dim ≥ 1 := by omega
    change (a.indexOfPosition id old : Int) = max 0 (min (⌊(old - bMin) / a.cellLength⌋ + a.cpil) (a.dim - 1)) at hi
    omega
  have hbb := exact_boundingBox (bMin := bMin) (bMax := bMax) (il := il) hc hlt
  simp only at hbb
  change a.boundingBox id (a.indexOfPosition id old) = (bMin + ((a.indexOfPosition id old : Rat) - a.cpil) * a.cellLength,
    bMin + ((a.indexOfPosition id old : Rat) - a.cpil + 1) * a.cellLength) at hbb
  rw [hbb]
  change (a.indexOfPosition id old : Int) = max 0 (min (⌊(old - bMin) / a.cellLength⌋ + a.cpil) (a.dim - 1)) at hi
  obtain ⟨m1, m2⟩ := abs_le.1 hm
  set i := a.indexOfPosition id old with hidef
  have hm0 : 0 ≤ m := le_trans (abs_nonneg _) hm
  have hfl := Int.floor_le ((old - bMin) / a.cellLength)
  have hfl2 := Int.lt_floor_add_one ((old - bMin) / a.cellLength)
  rw [le_div_iff₀ hl] at hfl
  rw [div_lt_iff₀ hl] at hfl2
  set f := ⌊(old - bMin) / a.cellLength⌋ with hf
  have hbm : bMax - bMin = (cellsPerDim id bMin bMax il csf : Rat) * a.cellLength := by
    rw [hcl]; field_simp
  refine ⟨?_, ?_, by linarith, by linarith⟩
  · show rMin - m < bMin + ((i : Rat) - a.cpil + 1) * a.cellLength
    by_cases hcase : (f : Int) + a.cpil ≤ a.dim - 1
    · have : (f : Int) ≤ (i : Int) - a.cpil := by omega
      have : (f : Rat) ≤ (i : Rat) - a.cpil := by exact_mod_cast this
      have : ((f : Rat) + 1) * a.cellLength ≤ ((i : Rat) - a.cpil + 1) * a.cellLength := by
        apply mul_le_mul_of_nonneg_right _ hl.le; linarith
      linarith
    · have : (i : Int) = a.dim - 1 := by omega
      have hiq : (i : Rat) = (cellsPerDim id bMin bMax il csf : Rat) + 2 * a.cpil - 1 := by
        have h5 : (i : Int) = (cellsPerDim id bMin bMax il csf : Int) + 2 * a.cpil - 1 := by rw [this, hdim]; push_cast; ring
        exact_mod_cast h5
      rw [hiq]
      have : ((cellsPerDim id bMin bMax il csf : Rat) + 2 * a.cpil - 1 - a.cpil + 1) * a.cellLength =
          (bMax - bMin) + a.cpil * a.cellLength := by rw [hbm]; ring
      linarith
  · show bMin + ((i : Rat) - a.cpil) * a.cellLength < rMax + m
    by_cases hcase : 0 ≤ (f : Int) + a.cpil
    · have : (i : Int) - a.cpil ≤ f := by omega
      have : (i : Rat) - a.cpil ≤ (f : Rat) := by exact_mod_cast this
      have : ((i : Rat) - a.cpil) * a.cellLength ≤ (f : Rat) * a.cellLength :=
        mul_le_mul_of_nonneg_right this hl.le
      linarith
    · have : i = 0 := by omega
      rw [this]
      push_cast
      linarith

theorem inBoxB_iff (p lo hi : V3 Rat) : inBoxB p lo hi = decide (InBox p lo hi) := by
  rw [Bool.eq_iff_iff]; simp [inBoxB, InBox, and_assoc]

/-- The clamped region is the intersection of the region with the box enlarged by the interaction length. -/
theorem clamped_iff (p bMin bMax lo hi : V3 Rat) (il : Rat) :
    inBoxB p (V3.maximum lo (bMin.addScalar (-il))) (V3.minimum hi (bMax.addScalar il)) =
      decide (InBox p lo hi ∧ InBox p (bMin.addScalar (-il)) (bMax.addScalar il)) := by
  rw [inBoxB_iff, decide_eq_decide]
  simp only [InBox, V3.maximum, V3.minimum, max_le_iff, lt_min_iff]
  tauto

/-- A particle in the region that moved at most `m` is stored in a cell that the region iterator looks at. -/
theorem region_cell {bMin bMax : V3 Rat} {il csf m : Rat} (h : GoodBox bMin bMax il csf) {lo hi pos old : V3 Rat}
    (hx : |pos.x - old.x| ≤ m) (hy : |pos.y - old.y| ≤ m) (hz : |pos.z - old.z| ≤ m)
    (hin : inBoxB pos (V3.maximum lo (bMin.addScalar (-il))) (V3.minimum hi (bMax.addScalar il)) = true) :
    let b := CellBlock.rebuild id bMin bMax il csf
    let sMin := (V3.maximum lo (bMin.addScalar (-il))).addScalar (-m)
    let sMax := (V3.minimum hi (bMax.addScalar il)).addScalar m
    boxesOverlap (b.cellBox (b.flatIndexOfPosition old)).1 (b.cellBox (b.flatIndexOfPosition old)).2 sMin sMax = true ∧
    b.flatIndexOfPosition sMin ≤ b.flatIndexOfPosition old ∧ b.flatIndexOfPosition old ≤ b.flatIndexOfPosition sMax := by
  intro b sMin sMax
  rw [inBoxB_iff, decide_eq_true_eq] at hin
  obtain ⟨⟨x1, x2⟩, ⟨y1, y2⟩, z1, z2⟩ := hin
  obtain ⟨ax, bx, cx, dx⟩ := region_axis h.hx h.ilPos h.csfPos h.wx hx x1 x2 (by simp [V3.maximum, V3.addScalar, sub_eq_add_neg])
    (by simp [V3.minimum, V3.addScalar])
  obtain ⟨ay, byy, cy, dy⟩ := region_axis h.hy h.ilPos h.csfPos h.wy hy y1 y2 (by simp [V3.maximum, V3.addScalar, sub_eq_add_neg])
    (by simp [V3.minimum, V3.addScalar])
  obtain ⟨az, bz, cz, dz⟩ := region_axis h.hz h.ilPos h.csfPos h.wz hz z1 z2 (by simp [V3.maximum, V3.addScalar, sub_eq_add_neg])
    (by simp [V3.minimum, V3.addScalar])
  rw [sub_eq_add_neg] at ax ay az cx cy cz
  refine ⟨?_, ?_, ?_⟩
  · unfold CellBlock.cellBox CellBlock.flatIndexOfPosition
    rw [oneToThreeD_threeToOneD (h.inGrid old)]
    simp only [boxesOverlap, Bool.and_eq_true, decide_eq_true_eq]
    exact ⟨⟨⟨ax, bx⟩, ay, byy⟩, az, bz⟩
  · exact flat_mono (axis_index_mono h.hx h.csfPos cx) (axis_index_mono h.hy h.csfPos cy) (axis_index_mono h.hz h.csfPos cz)
  · exact flat_mono (axis_index_mono h.hx h.csfPos dx) (axis_index_mono h.hy h.csfPos dy) (axis_index_mono h.hz h.csfPos dz)

theorem flatIndex_lt {bMin bMax : V3 Rat} {il csf : Rat} (h : GoodBox bMin bMax il csf) (p : V3 Rat) :
    (CellBlock.rebuild id bMin bMax il csf).flatIndexOfPosition p < (CellBlock.rebuild id bMin bMax il csf).numCells := by
  have := flat_lt (h.inGrid p)
  unfold CellBlock.flatIndexOfPosition CellBlock.numCells
  simpa [numCells, CellBlock.dims] using this

theorem region_goodStorage {bMin bMax : V3 Rat} {il csf m : Rat} (h : GoodBox bMin bMax il csf) {behavior : Nat}
    {cells vecs : List (List Particle)} (hs : LCStorage (CellBlock.rebuild id bMin bMax il csf) cells vecs)
    (hb : NoDummyOrAll behavior) (hm : MovedAtMost (CellBlock.rebuild id bMin bMax il csf) m cells) (lo hi : V3 Rat)
    (T t : Nat) (hT : 0 < T) :
    GoodStorage (lcRegionCfg (CellBlock.rebuild id bMin bMax il csf) bMin bMax il m lo hi behavior T t) cells vecs := by
  refine ⟨?_, ?_, hs.small, hs.vsmall, hs.vnum⟩
  · show 0 < iterStride behavior T
    unfold iterStride; split <;> omega
  · intro c hc p hp
    simp only [lcRegionCfg, Bool.and_eq_false_iff] at hc ⊢
    rcases hc with hc | hc
    · right
      rw [fulfills_wanted]
      exact not_wanted_of_mismatch hs hb hc hp
    · left
      obtain ⟨old, rfl, hx, hy, hz⟩ := hm c p hp
      by_contra hin
      rw [Bool.not_eq_false] at hin
      have := (region_cell h (csf := csf) hx hy hz hin).1
      rw [this] at hc
      cases hc

/-- A loop without visits leaves everything as it was. -/
theorem loopEnds_nil {P : Type} {cfg : IterCfg P} {body : List P → P → Option P} {cells vecs c' v' : List (List P)}
    (h : LoopEnds cfg body cells vecs [] c' v') : LoopEnds cfg body cells vecs [] cells vecs := by
  obtain ⟨m0, h⟩ := h
  refine ⟨m0 + 1, fun m hm => ?_⟩
  obtain ⟨t, h1, h2, h3⟩ := h m (by omega)
  obtain ⟨b1, b2⟩ := iterBegin_store cfg cells vecs
  obtain ⟨k, rfl⟩ : ∃ k, m = k + 1 := ⟨m - 1, by omega⟩
  refine ⟨t, h1, ?_⟩
  unfold iterLoop at h1
  cases hc : (iterBegin cfg cells vecs).cur with
  | none =>
    rw [hc] at h1
    simp only [Option.some.injEq, Prod.mk.injEq, true_and] at h1
    rw [← h1]; exact ⟨b1, b2⟩
  | some p =>
    rw [hc] at h1
    simp only [Option.map_eq_some_iff] at h1
    obtain ⟨⟨a, b⟩, -, h5⟩ := h1
    simp at h5

end Verif
