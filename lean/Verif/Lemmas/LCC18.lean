import Verif.Model.LCC18
import Verif.Lemmas.PairCount
import Verif.Lemmas.LCC08
namespace Verif
open Spec

theorem nodup_ite_single {α : Type _} {p q : Prop} [Decidable p] [Decidable q] (a : α) :
    (if p then [] else if q then [a] else []).Nodup := by
  split <;> (try split) <;> simp

theorem nodup_c18Indices (dims : V3 Nat) (cl : V3 Rat) (il : Rat) (yI xI : Nat) : (c18Indices dims cl il yI xI).Nodup := by
  unfold c18Indices
  refine nodup_flatMap_key (fun t => t.2.2) (nodup_forInt _ _) (fun z _ => ?_) ?_
  · refine nodup_flatMap_key (fun t => t.2.1) (nodup_forInt _ _) (fun y _ => ?_) ?_
    · refine nodup_flatMap_key (fun t => t.1) (nodup_forInt _ _) (fun x _ => nodup_ite_single _) ?_
      intro x _ t ht
      split at ht <;> (try split at ht) <;> simp at ht
      rw [ht]
    · intro y _ t ht
      simp only [List.mem_flatMap] at ht
      obtain ⟨x, _, ht⟩ := ht
      split at ht <;> (try split at ht) <;> simp at ht
      rw [ht]
  · intro z _ t ht
    simp only [List.mem_flatMap] at ht
    obtain ⟨y, _, x, _, ht⟩ := ht
    split at ht <;> (try split at ht) <;> simp at ht
    rw [ht]

theorem mem_c18Indices {dims : V3 Nat} {cl : V3 Rat} {il : Rat} {yI xI : Nat} {x y z : Int} :
    (x, y, z) ∈ c18Indices dims cl il yI xI ↔
      (-(overlapOf il cl).x ≤ x ∧ x ≤ (overlapOf il cl).x) ∧ (-(overlapOf il cl).y ≤ y ∧ y ≤ (overlapOf il cl).y) ∧
      (0 ≤ z ∧ z ≤ (overlapOf il cl).z) ∧ 0 ≤ threeToOneDInt x y z dims.toInt ∧
      (((yI - (overlapOf il cl).y + y).natAbs : Int) ≤ (overlapOf il cl).y) ∧
      (((xI - (overlapOf il cl).x + x).natAbs : Int) ≤ (overlapOf il cl).x) ∧
      (gapVec cl x y z).dot (gapVec cl x y z) ≤ il * il := by
  simp only [c18Indices, List.mem_flatMap, mem_forInt]
  constructor
  · rintro ⟨z', hz, y', hy, x', hx, ht⟩
    split at ht <;> (try split at ht) <;> simp at ht
    rename_i h1 h2
    obtain ⟨rfl, rfl, rfl⟩ := ht
    exact ⟨hx, hy, hz, by omega, h2.1, h2.2.1, h2.2.2⟩
  · rintro ⟨hx, hy, hz, h1, h2, h3, h4⟩
    refine ⟨z, hz, y, hy, x, hx, ?_⟩
    rw [if_neg (by omega), if_pos ⟨h2, h3, h4⟩]
    simp

/-- The dimensions are large enough for the special-case table. -/
structure C18Dims (dims : V3 Nat) (cl : V3 Rat) (il : Rat) : Prop where
  pos : C08Pos cl il
  x : 2 * (overlapOf il cl).x + 1 ≤ dims.x
  y : 2 * (overlapOf il cl).y + 1 ≤ dims.y
  z : 2 * (overlapOf il cl).z + 1 ≤ dims.z

/-- One axis of the special-case table: the table entry selects exactly the offsets that stay in the grid. -/
theorem c18_axis {p d : Nat} {ov x : Int} (hov : 1 ≤ ov) (hd : 2 * ov + 1 ≤ d) (hp : p < d) (hx : -ov ≤ x ∧ x ≤ ov) :
    (((c18GetIndex p d ov.toNat : Int) - ov + x).natAbs : Int) ≤ ov ↔ 0 ≤ p + x ∧ p + x < d := by
  unfold c18GetIndex
  split
  · omega
  · split <;> omega

/-- Table lookups stay inside the table of size `2 * ov + 1`. -/
theorem c18GetIndex_lt {p d : Nat} {ov : Int} (_hov : 1 ≤ ov) (_hd : 2 * ov + 1 ≤ d) (hp : p < d) :
    c18GetIndex p d ov.toNat < 2 * ov.toNat + 1 := by
  unfold c18GetIndex
  split
  · omega
  · split <;> omega

def c18Q (dims : V3 Nat) (cl : V3 Rat) (il : Rat) : List (V3 Nat × Int × Int × Int) :=
  basePairsD (c18Bases false dims (overlapOf il cl).toNat).flatten fun b =>
    c18Indices dims cl il (c18GetIndex b.y dims.y (overlapOf il cl).toNat.y) (c18GetIndex b.x dims.x (overlapOf il cl).toNat.x)

theorem c18Bases_mem {dims ov c : V3 Nat} :
    c ∈ (c18Bases false dims ov).flatten ↔ c.x < dims.x ∧ c.y < dims.y ∧ c.z < dims.z - ov.z := by
  unfold c18Bases
  rw [mem_colorTraversal (by simp) (by simp) (by simp)]
  simp [InRange]

theorem mem_c18Q {dims : V3 Nat} {cl : V3 Rat} {il : Rat} (h : C18Dims dims cl il) {b : V3 Nat} {x y z : Int} :
    (b, x, y, z) ∈ c18Q dims cl il ↔
      (b.x < dims.x ∧ b.y < dims.y ∧ (b.z : Int) < dims.z - (overlapOf il cl).z) ∧
      (-(overlapOf il cl).x ≤ x ∧ x ≤ (overlapOf il cl).x) ∧ (-(overlapOf il cl).y ≤ y ∧ y ≤ (overlapOf il cl).y) ∧
      (0 ≤ z ∧ z ≤ (overlapOf il cl).z) ∧ 0 ≤ threeToOneDInt x y z dims.toInt ∧
      (0 ≤ b.x + x ∧ b.x + x < dims.x) ∧ (0 ≤ b.y + y ∧ b.y + y < dims.y) ∧
      (gapVec cl x y z).dot (gapVec cl x y z) ≤ il * il := by
  obtain ⟨o1, o2, o3⟩ := h.pos.ov
  have hdx := h.x
  have hdy := h.y
  have hdz := h.z
  rw [c18Q, mem_basePairsD, c18Bases_mem, mem_c18Indices]
  constructor
  · rintro ⟨⟨b1, b2, b3⟩, hx, hy, hz, ho, k1, k2, hg⟩
    rw [V3.toNat] at b3
    simp only [V3.toNat] at k1 k2
    rw [c18_axis o2 hdy b2 hy] at k1
    rw [c18_axis o1 hdx b1 hx] at k2
    exact ⟨⟨b1, b2, by simp only at b3; omega⟩, hx, hy, hz, ho, k2, k1, hg⟩
  · rintro ⟨⟨b1, b2, b3⟩, hx, hy, hz, ho, k1, k2, hg⟩
    refine ⟨⟨b1, b2, by simp only [V3.toNat]; omega⟩, hx, hy, hz, ho, ?_, ?_, hg⟩
    · simp only [V3.toNat]; rw [c18_axis o2 hdy b2 hy]; exact k2
    · simp only [V3.toNat]; rw [c18_axis o1 hdx b1 hx]; exact k1

theorem c18_coded {dims : V3 Nat} {cl : V3 Rat} {il : Rat} (h : C18Dims dims cl il) :
    Coded dims (lcC18 dims cl il).flatten.flatten (c18Q dims cl il) (fun q => q.1) (fun q => shift q.1 q.2) := by
  refine ⟨nodup_basePairsD (nodup_colorTraversal _ _ _) (fun b _ => nodup_c18Indices _ _ _ _ _), ?_, ?_,
    ⟨fun q => offsetSortDir cl q.2.1 q.2.2.1 q.2.2.2, ?_⟩⟩
  · rintro ⟨b, x, y, z⟩ hq
    rw [mem_c18Q h] at hq
    obtain ⟨o1, o2, o3⟩ := h.pos.ov
    exact ⟨hq.1.1, hq.1.2.1, by have := hq.1.2.2; simp only; omega⟩
  · rintro ⟨b, x, y, z⟩ hq
    rw [mem_c18Q h] at hq
    obtain ⟨o1, o2, o3⟩ := h.pos.ov
    refine ⟨?_, ?_, ?_⟩ <;> simp only [shift] <;> omega
  · unfold lcC18 c18Q basePairsD
    rw [List.map_flatMap, ← List.map_flatten, ← List.flatMap_def]
    apply List.flatMap_congr
    intro b hb
    simp only [c18ProcessBaseCell, List.map_map]
    apply List.map_congr_left
    rintro ⟨x, y, z⟩ ht
    have hq : (b, x, y, z) ∈ c18Q dims cl il := mem_basePairsD.2 ⟨hb, ht⟩
    rw [mem_c18Q h] at hq
    simp only [Function.comp, baseCellOp, mkOp]
    rw [flat_shift hq.2.2.2.2.2.1.1 hq.2.2.2.2.2.2.1.1 (by have := hq.2.2.2.1.1; omega)]

theorem shift_inj {b : V3 Nat} {s t : Int × Int × Int} (hs : 0 ≤ b.x + s.1 ∧ 0 ≤ b.y + s.2.1 ∧ 0 ≤ b.z + s.2.2)
    (ht : 0 ≤ b.x + t.1 ∧ 0 ≤ b.y + t.2.1 ∧ 0 ≤ b.z + t.2.2) (h : shift b s = shift b t) : s = t := by
  rcases s with ⟨s1, s2, s3⟩
  rcases t with ⟨t1, t2, t3⟩
  simp only [shift, V3.mk.injEq, Prod.mk.injEq] at *
  omega

theorem c18_unique {dims : V3 Nat} {cl : V3 Rat} {il : Rat} (h : C18Dims dims cl il) :
    ∀ q ∈ c18Q dims cl il, ∀ r ∈ c18Q dims cl il, q.1 = r.1 → shift q.1 q.2 = shift r.1 r.2 → q = r := by
  rintro ⟨b, s⟩ hq ⟨c, t⟩ hr e1 e2
  simp only at e1 e2
  subst e1
  obtain ⟨s1, s2, s3⟩ := s
  obtain ⟨t1, t2, t3⟩ := t
  rw [mem_c18Q h] at hq hr
  rw [shift_inj (by simp only; omega) (by simp only; omega) e2]

theorem c18_anti {dims : V3 Nat} {cl : V3 Rat} {il : Rat} (h : C18Dims dims cl il) :
    ∀ q ∈ c18Q dims cl il, ∀ r ∈ c18Q dims cl il, q.1 = shift r.1 r.2 → shift q.1 q.2 = r.1 → q.1 = shift q.1 q.2 := by
  have key : ∀ q ∈ c18Q dims cl il, (threeToOneD q.1 dims : Int) ≤ threeToOneD (shift q.1 q.2) dims := by
    rintro ⟨b, x, y, z⟩ hq
    rw [mem_c18Q h] at hq
    simp only
    rw [← flat_shift (by omega) (by omega) (by omega)]
    omega
  intro q hq r hr e1 e2
  have h1 := key q hq
  have h2 := key r hr
  rw [← e1, ← e2] at h2
  exact flat_inj ((c18_coded h).gridf q hq) ((c18_coded h).gridg q hq) (by omega)

theorem c18_exists_ordered {dims : V3 Nat} {cl : V3 Rat} {il : Rat} (h : C18Dims dims cl il) {hw : Nat}
    (hwz : (overlapOf il cl).z ≤ hw)
    {a b : V3 Nat} (ha : InGrid a dims) (hb : InGrid b dims) (hle : threeToOneD a dims ≤ threeToOneD b dims)
    (hov : WithinOverlap (overlapOf il cl).toNat a b) (hgap : cellGapSq cl a b ≤ il * il)
    (hh : ¬ (IsHalo hw dims a ∧ IsHalo hw dims b)) :
    ∃ q ∈ c18Q dims cl il, q.1 = a ∧ shift q.1 q.2 = b := by
  have hz := flat_le_z hb hle
  obtain ⟨o1, o2, o3⟩ := h.pos.ov
  have hdz := h.z
  unfold IsHalo at hh
  unfold WithinOverlap axisDist V3.toNat at hov
  simp only at hov
  obtain ⟨v1, v2, v3⟩ := hov
  obtain ⟨a1, a2, a3⟩ := ha
  obtain ⟨b1, b2, b3⟩ := hb
  have hs : shift a ((b.x : Int) - a.x, (b.y : Int) - a.y, (b.z : Int) - a.z) = b := by
    rcases b with ⟨bx, by', bz⟩
    simp only [shift, V3.mk.injEq]; omega
  refine ⟨(a, (b.x : Int) - a.x, (b.y : Int) - a.y, (b.z : Int) - a.z), ?_, rfl, hs⟩
  rw [mem_c18Q h]
  refine ⟨⟨a1, a2, by omega⟩, ?_, ?_, ?_, ?_, ⟨by omega, by omega⟩, ⟨by omega, by omega⟩, ?_⟩
  · split at v1 <;> omega
  · split at v2 <;> omega
  · split at v3 <;> omega
  · have := flat_shift (dims := dims) (b := a) (x := (b.x : Int) - a.x) (y := (b.y : Int) - a.y) (z := (b.z : Int) - a.z)
      (by omega) (by omega) (by omega)
    rw [hs] at this
    omega
  · rw [gap_eq (a := a) (b := b)] <;> first | exact hgap | omega

end Verif
