import Verif.Model.LCC08
import Verif.Lemmas.CellOp
namespace Verif
open Spec

theorem nodup_c08Indices (cl : V3 Rat) (il : Rat) : (c08Indices cl il).Nodup := by
  unfold c08Indices
  refine nodup_flatMap_key (fun t => t.1) (nodup_forInt _ _) (fun x _ => ?_) ?_
  · refine nodup_flatMap_key (fun t => t.2.1) (nodup_forInt _ _) (fun y _ => ?_) ?_
    · refine nodup_flatMap_key (fun t => t.2.2.1) (nodup_forInt _ _) (fun z _ => ?_) ?_
      · refine nodup_flatMap_key (fun t => t.2.2.2) (by decide) (fun d _ => ?_) ?_
        · split <;> (try split) <;> simp
        · intro d _ t ht
          split at ht <;> (try split at ht) <;> simp at ht
          rw [ht]
      · intro z _ t ht
        simp only [List.mem_flatMap] at ht
        obtain ⟨d, _, ht⟩ := ht
        split at ht <;> (try split at ht) <;> simp at ht
        rw [ht]
    · intro y _ t ht
      simp only [List.mem_flatMap] at ht
      obtain ⟨z, _, d, _, ht⟩ := ht
      split at ht <;> (try split at ht) <;> simp at ht
      rw [ht]
  · intro x _ t ht
    simp only [List.mem_flatMap] at ht
    obtain ⟨y, _, z, _, d, _, ht⟩ := ht
    split at ht <;> (try split at ht) <;> simp at ht
    rw [ht]

theorem mem_c08Indices {cl : V3 Rat} {il : Rat} {x y z : Int} {d : C08Dir} :
    (x, y, z, d) ∈ c08Indices cl il ↔
      (0 ≤ x ∧ x ≤ (overlapOf il cl).x) ∧ (0 ≤ y ∧ y ≤ (overlapOf il cl).y) ∧ (0 ≤ z ∧ z ≤ (overlapOf il cl).z) ∧
      d.includeCellPair (overlapOf il cl) x y z = true ∧
      (c08DistVec (overlapOf il cl) cl x y z d).dot (c08DistVec (overlapOf il cl) cl x y z d) ≤ il * il := by
  simp only [c08Indices, List.mem_flatMap, mem_forInt]
  constructor
  · rintro ⟨x', hx, y', hy, z', hz, d', hd, ht⟩
    split at ht <;> (try split at ht) <;> simp at ht
    rename_i h1 h2
    obtain ⟨rfl, rfl, rfl, rfl⟩ := ht
    exact ⟨hx, hy, hz, h1, h2⟩
  · rintro ⟨hx, hy, hz, h1, h2⟩
    refine ⟨x, hx, y, hy, z, hz, d, by cases d <;> decide, ?_⟩
    simp [h1, h2]

/-- All functor calls of the traversal as a map over (base cell, loop iteration). -/
theorem lcC08_flatten (dims : V3 Nat) (cl : V3 Rat) (il : Rat) :
    (lcC08 dims cl il).flatten.flatten =
      (basePairs (c08Bases dims (overlapOf il cl).toNat).flatten (c08Indices cl il)).map
        (fun q => cellOpOf (threeToOneD q.1 dims) (c08Offset dims cl il q.2)) := by
  unfold lcC08 basePairs
  rw [List.map_flatMap, ← List.map_flatten, ← List.flatMap_def]
  congr 1
  funext b
  simp only [c08ProcessBaseCell, c08Offsets, List.map_map]
  rfl

/-- The two cells of an entry: second = first partner `(x, y, 0)`, first = other partner. -/
theorem c08_cells (dims : V3 Nat) (cl : V3 Rat) (il : Rat) (b : V3 Nat) (x y z : Int) (d : C08Dir) :
    (threeToOneD b dims : Int) + (c08Offset dims cl il (x, y, z, d)).1 =
      threeToOneDInt (b.x + d.maskXY.1 * (overlapOf il cl).x) (b.y + d.maskXY.2 * (overlapOf il cl).y) (b.z + z) dims.toInt ∧
    (threeToOneD b dims : Int) + (c08Offset dims cl il (x, y, z, d)).2.1 =
      threeToOneDInt (b.x + x) (b.y + y) b.z dims.toInt := by
  have h := flatInt_add b dims x y 0
  rw [Int.add_zero] at h
  exact ⟨flatInt_add b dims _ _ _, h⟩

theorem c08Bases_mem {dims ov c : V3 Nat} :
    c ∈ (c08Bases dims ov).flatten ↔ c.x < dims.x - ov.x ∧ c.y < dims.y - ov.y ∧ c.z < dims.z - ov.z := by
  unfold c08Bases
  rw [mem_colorTraversal (by simp) (by simp) (by simp)]
  simp [InRange, V3.sub]

end Verif

namespace Verif
open Spec

/-- `q = (base, iteration)` handles the ordered pair (first cell `A`, second cell `B`). -/
def c08Match (ov : V3 Int) (q : V3 Nat × Int × Int × Int × C08Dir) (A B : V3 Nat) : Prop :=
  (q.1.x + q.2.2.2.2.maskXY.1 * ov.x = (A.x : Int) ∧ q.1.y + q.2.2.2.2.maskXY.2 * ov.y = (A.y : Int) ∧
    q.1.z + q.2.2.2.1 = (A.z : Int)) ∧
  ((q.1.x : Int) + q.2.1 = B.x ∧ (q.1.y : Int) + q.2.2.1 = B.y ∧ (q.1.z : Int) = B.z)

def c08Q (dims : V3 Nat) (cl : V3 Rat) (il : Rat) : List (V3 Nat × Int × Int × Int × C08Dir) :=
  basePairs (c08Bases dims (overlapOf il cl).toNat).flatten (c08Indices cl il)

/-- Positivity facts about the overlap. -/
structure C08Pos (cl : V3 Rat) (il : Rat) : Prop where
  il : 0 < il
  x : 0 < cl.x
  y : 0 < cl.y
  z : 0 < cl.z

theorem C08Pos.ov {cl : V3 Rat} {il : Rat} (h : C08Pos cl il) :
    1 ≤ (overlapOf il cl).x ∧ 1 ≤ (overlapOf il cl).y ∧ 1 ≤ (overlapOf il cl).z :=
  ⟨overlap_pos h.il h.x, overlap_pos h.il h.y, overlap_pos h.il h.z⟩

theorem c08Q_bounds {dims : V3 Nat} {cl : V3 Rat} {il : Rat} (hp : C08Pos cl il)
    {b : V3 Nat} {x y z : Int} {d : C08Dir} (hq : (b, x, y, z, d) ∈ c08Q dims cl il) :
    (0 ≤ b.x + d.maskXY.1 * (overlapOf il cl).x ∧ b.x + d.maskXY.1 * (overlapOf il cl).x < dims.x) ∧
    (0 ≤ b.y + d.maskXY.2 * (overlapOf il cl).y ∧ b.y + d.maskXY.2 * (overlapOf il cl).y < dims.y) ∧
    (0 ≤ b.z + z ∧ b.z + z < dims.z) ∧
    (0 ≤ b.x + x ∧ b.x + x < dims.x) ∧ (0 ≤ b.y + y ∧ b.y + y < dims.y) ∧ ((0:Int) ≤ b.z ∧ (b.z:Int) < dims.z) := by
  obtain ⟨o1, o2, o3⟩ := hp.ov
  rw [c08Q, mem_basePairs, c08Bases_mem, mem_c08Indices] at hq
  obtain ⟨⟨h1, h2, h3⟩, hx, hy, hz, -, -⟩ := hq
  simp only [V3.toNat] at h1 h2 h3
  cases d <;> simp only [C08Dir.maskXY] <;> omega

theorem c08Match_iff {dims : V3 Nat} {cl : V3 Rat} {il : Rat} (hp : C08Pos cl il)
    {b : V3 Nat} {x y z : Int} {d : C08Dir} (hq : (b, x, y, z, d) ∈ c08Q dims cl il)
    {A B : V3 Nat} (hA : InGrid A dims) (hB : InGrid B dims) :
    ((threeToOneD b dims : Int) + (c08Offset dims cl il (x, y, z, d)).1 = threeToOneD A dims ∧
     (threeToOneD b dims : Int) + (c08Offset dims cl il (x, y, z, d)).2.1 = threeToOneD B dims) ↔
    c08Match (overlapOf il cl) (b, x, y, z, d) A B := by
  obtain ⟨h1, h2, h3, h4, h5, h6⟩ := c08Q_bounds hp hq
  obtain ⟨e1, e2⟩ := c08_cells dims cl il b x y z d
  rw [e1, e2]
  constructor
  · rintro ⟨k1, k2⟩
    exact ⟨flatInt_inj hA h1 h2 h3 k1, flatInt_inj hB h4 h5 h6 k2⟩
  · rintro ⟨⟨a1, a2, a3⟩, ⟨b1, b2, b3⟩⟩
    simp only at a1 a2 a3 b1 b2 b3
    rw [a1, a2, a3, b1, b2, b3]
    exact ⟨flatInt_nat A dims, flatInt_nat B dims⟩

theorem c08Match_unique {dims : V3 Nat} {cl : V3 Rat} {il : Rat} (hp : C08Pos cl il)
    {q q' : V3 Nat × Int × Int × Int × C08Dir} (hq : q ∈ c08Q dims cl il) (hq' : q' ∈ c08Q dims cl il)
    {A B : V3 Nat} (h : c08Match (overlapOf il cl) q A B) (h' : c08Match (overlapOf il cl) q' A B) : q = q' := by
  obtain ⟨o1, o2, o3⟩ := hp.ov
  rcases q with ⟨⟨bx, by_, bz⟩, x, y, z, d⟩
  rcases q' with ⟨⟨bx', by', bz'⟩, x', y', z', d'⟩
  rw [c08Q, mem_basePairs, mem_c08Indices] at hq hq'
  obtain ⟨-, hx, hy, hz, hi, -⟩ := hq
  obtain ⟨-, hx', hy', hz', hi', -⟩ := hq'
  unfold c08Match at h h'
  cases d <;> cases d' <;>
    simp only [C08Dir.maskXY, C08Dir.includeCellPair, Bool.and_eq_true, Bool.or_eq_true, decide_eq_true_eq, ne_eq,
      Prod.mk.injEq, V3.mk.injEq, reduceCtorEq, and_false, and_true] at * <;> omega

theorem c08Match_antisymm {dims : V3 Nat} {cl : V3 Rat} {il : Rat} (hp : C08Pos cl il)
    {q q' : V3 Nat × Int × Int × Int × C08Dir} (hq : q ∈ c08Q dims cl il) (hq' : q' ∈ c08Q dims cl il)
    {A B : V3 Nat} (h : c08Match (overlapOf il cl) q A B) (h' : c08Match (overlapOf il cl) q' B A) : A = B := by
  obtain ⟨o1, o2, o3⟩ := hp.ov
  rcases q with ⟨⟨bx, by_, bz⟩, x, y, z, d⟩
  rcases q' with ⟨⟨bx', by', bz'⟩, x', y', z', d'⟩
  rcases A with ⟨ax, ay, az⟩
  rcases B with ⟨ex, ey, ez⟩
  rw [c08Q, mem_basePairs, mem_c08Indices] at hq hq'
  obtain ⟨-, hx, hy, hz, hi, -⟩ := hq
  obtain ⟨-, hx', hy', hz', hi', -⟩ := hq'
  unfold c08Match at h h'
  cases d <;> cases d' <;>
    simp only [C08Dir.maskXY, C08Dir.includeCellPair, Bool.and_eq_true, Bool.or_eq_true, decide_eq_true_eq, ne_eq,
      V3.mk.injEq] at * <;> omega

/-- Facts about cells handled together. -/
theorem c08Match_within {dims : V3 Nat} {cl : V3 Rat} {il : Rat} (hp : C08Pos cl il)
    {q : V3 Nat × Int × Int × Int × C08Dir} (hq : q ∈ c08Q dims cl il)
    {A B : V3 Nat} (h : c08Match (overlapOf il cl) q A B) : WithinOverlap (overlapOf il cl).toNat A B := by
  obtain ⟨o1, o2, o3⟩ := hp.ov
  rcases q with ⟨⟨bx, by_, bz⟩, x, y, z, d⟩
  rw [c08Q, mem_basePairs, mem_c08Indices] at hq
  obtain ⟨-, hx, hy, hz, hi, -⟩ := hq
  unfold c08Match at h
  unfold WithinOverlap axisDist V3.toNat
  cases d <;>
    simp only [C08Dir.maskXY] at * <;> refine ⟨?_, ?_, ?_⟩ <;> split <;> omega

theorem axisDist_comm (a b : Nat) : axisDist a b = axisDist b a := by unfold axisDist; split <;> split <;> omega

theorem cellGapSq_comm (cl : V3 Rat) (a b : V3 Nat) : cellGapSq cl a b = cellGapSq cl b a := by
  unfold cellGapSq axisGap
  rw [axisDist_comm a.x, axisDist_comm a.y, axisDist_comm a.z]

theorem c08_gap {ov : V3 Int} {cl : V3 Rat} {x y z : Int} {d : C08Dir} {b A B : V3 Nat}
    (hx : 0 ≤ x ∧ x ≤ ov.x) (hy : 0 ≤ y ∧ y ≤ ov.y) (hz : 0 ≤ z)
    (h : c08Match ov (b, x, y, z, d) A B) :
    (c08DistVec ov cl x y z d).dot (c08DistVec ov cl x y z d) = cellGapSq cl A B := by
  obtain ⟨⟨a1, a2, a3⟩, b1, b2, b3⟩ := h
  simp only at a1 a2 a3 b1 b2 b3
  unfold V3.dot c08DistVec cellGapSq
  simp only
  rw [axisGap_sq_eq cl.x A.x B.x, axisGap_sq_eq cl.y A.y B.y, axisGap_sq_eq cl.z A.z B.z]
  · unfold axisDist; split <;> omega
  · cases d <;> simp only [C08Dir.maskXY] at * <;> unfold axisDist <;> split <;> omega
  · cases d <;> simp only [C08Dir.maskXY] at * <;> unfold axisDist <;> split <;> omega

/-- Existence for a suitably ordered pair. -/
theorem c08_exists_ordered {dims : V3 Nat} {cl : V3 Rat} {il : Rat} (hp : C08Pos cl il) {hw : Nat}
    (hwx : (overlapOf il cl).x ≤ hw) (hwy : (overlapOf il cl).y ≤ hw) (hwz : (overlapOf il cl).z ≤ hw)
    {A B : V3 Nat} (hA : InGrid A dims) (_hB : InGrid B dims)
    (hov : WithinOverlap (overlapOf il cl).toNat A B) (hgap : cellGapSq cl A B ≤ il * il)
    (hh : ¬ (IsHalo hw dims A ∧ IsHalo hw dims B))
    (ho : B.z < A.z ∨ (A.z = B.z ∧ ((A.x ≤ B.x ∧ A.y ≤ B.y) ∨ (B.x < A.x ∧ A.y < B.y)))) :
    ∃ q ∈ c08Q dims cl il, c08Match (overlapOf il cl) q A B := by
  obtain ⟨o1, o2, o3⟩ := hp.ov
  have hov' := hov
  have hh' := hh
  unfold WithinOverlap axisDist V3.toNat at hov
  unfold IsHalo at hh
  unfold InGrid at hA _hB
  simp only at hov
  obtain ⟨v1, v2, v3⟩ := hov
  set ov := overlapOf il cl with hovdef
  -- direction, iteration, base cell
  let d : C08Dir := if B.x < A.x then (if B.y < A.y then .backRight else .frontRight)
                    else (if B.y < A.y then .backLeft else .frontLeft)
  let x : Int := if B.x < A.x then ov.x - (A.x - B.x) else B.x - A.x
  let y : Int := if B.y < A.y then ov.y - (A.y - B.y) else B.y - A.y
  let z : Int := A.z - B.z
  let bx : Int := if B.x < A.x then A.x - ov.x else A.x
  let by' : Int := if B.y < A.y then A.y - ov.y else A.y
  let b : V3 Nat := ⟨bx.toNat, by'.toNat, B.z⟩
  have hbx : 0 ≤ bx ∧ bx < dims.x - ov.x := by
    simp only [bx]; split at v1 <;> split <;> omega
  have hby : 0 ≤ by' ∧ by' < dims.y - ov.y := by
    simp only [by']; split at v2 <;> split <;> omega
  have hbz : (B.z : Int) < dims.z - ov.z := by
    split at v3 <;> omega
  have hx : 0 ≤ x ∧ x ≤ ov.x := by
    simp only [x]; split at v1 <;> split <;> omega
  have hy : 0 ≤ y ∧ y ≤ ov.y := by
    simp only [y]; split at v2 <;> split <;> omega
  have hz : 0 ≤ z ∧ z ≤ ov.z := by
    simp only [z]; split at v3 <;> omega
  have hm : c08Match ov (b, x, y, z, d) A B := by
    unfold c08Match
    have e1 : ((b.x : Nat) : Int) = bx := by simp only [b]; omega
    have e2 : ((b.y : Nat) : Int) = by' := by simp only [b]; omega
    have e3 : ((b.z : Nat) : Int) = B.z := rfl
    simp only [e1, e2, e3]
    by_cases h1 : B.x < A.x <;> by_cases h2 : B.y < A.y <;>
      simp only [d, x, y, z, bx, by', h1, h2, if_true, if_false, C08Dir.maskXY] <;> refine ⟨⟨?_, ?_, ?_⟩, ?_, ?_, ?_⟩ <;> first | trivial | omega
  refine ⟨(b, x, y, z, d), ?_, hm⟩
  rw [c08Q, mem_basePairs, c08Bases_mem, mem_c08Indices]; rw [← hovdef]
  refine ⟨⟨?_, ?_, ?_⟩, hx, hy, hz, ?_, ?_⟩
  · simp only [b, V3.toNat]; omega
  · simp only [b, V3.toNat]; omega
  · simp only [b, V3.toNat]; omega
  · by_cases h1 : B.x < A.x <;> by_cases h2 : B.y < A.y <;>
      simp only [d, x, y, z, h1, h2, if_true, if_false, C08Dir.includeCellPair, Bool.and_eq_true, Bool.or_eq_true,
        decide_eq_true_eq, ne_eq] <;> omega
  · rw [c08_gap hx hy hz.1 hm]; exact hgap

theorem c08_exists {dims : V3 Nat} {cl : V3 Rat} {il : Rat} (hp : C08Pos cl il) {hw : Nat}
    (hwx : (overlapOf il cl).x ≤ hw) (hwy : (overlapOf il cl).y ≤ hw) (hwz : (overlapOf il cl).z ≤ hw)
    {A B : V3 Nat} (hA : InGrid A dims) (hB : InGrid B dims)
    (hov : WithinOverlap (overlapOf il cl).toNat A B) (hgap : cellGapSq cl A B ≤ il * il)
    (hh : ¬ (IsHalo hw dims A ∧ IsHalo hw dims B)) :
    ∃ q ∈ c08Q dims cl il, c08Match (overlapOf il cl) q A B ∨ c08Match (overlapOf il cl) q B A := by
  by_cases ho : B.z < A.z ∨ (A.z = B.z ∧ ((A.x ≤ B.x ∧ A.y ≤ B.y) ∨ (B.x < A.x ∧ A.y < B.y)))
  · obtain ⟨q, hq, hm⟩ := c08_exists_ordered hp hwx hwy hwz hA hB hov hgap hh ho
    exact ⟨q, hq, Or.inl hm⟩
  · have hov' : WithinOverlap (overlapOf il cl).toNat B A := by
      unfold WithinOverlap at *
      rw [axisDist_comm B.x, axisDist_comm B.y, axisDist_comm B.z]; exact hov
    rw [cellGapSq_comm] at hgap
    obtain ⟨q, hq, hm⟩ := c08_exists_ordered hp hwx hwy hwz hB hA hov' hgap (fun h => hh ⟨h.2, h.1⟩)
      (by by_contra hn; omega)
    exact ⟨q, hq, Or.inr hm⟩

end Verif
