import Verif.Model.LCC01
import Verif.Lemmas.LCC18
import Mathlib.Tactic.LinearCombination
namespace Verif
open Spec

theorem c01AddIx_fold (ovx y z : Int) (l : List Int) (hnd : l.Nodup) (hl : ∀ i ∈ l, 0 ≤ i + ovx) (s : C01Slices) (k : Nat) :
    (l.foldl (c01AddIx ovx y z) s) k =
      if (k : Int) - ovx ∈ l then
        (if y = 0 ∧ z = 0 then ((k : Int) - ovx, y, z) :: s k else s k ++ [((k : Int) - ovx, y, z)])
      else s k := by
  induction l generalizing s with
  | nil => simp
  | cons i l ih =>
    rw [List.nodup_cons] at hnd
    rw [List.foldl_cons, ih hnd.2 (fun j hj => hl j (List.mem_cons_of_mem _ hj))]
    have hi := hl i List.mem_cons_self
    simp only [c01AddIx, List.mem_cons]
    by_cases hk : k = (i + ovx).toNat
    · have hki : (k : Int) - ovx = i := by omega
      rw [hki]
      simp [hnd.1, hk]
    · have hki : (k : Int) - ovx ≠ i := by omega
      simp [hk, hki]

/-- What the table contains after the iterations `P`. -/
def C01Inv (cl : V3 Rat) (il : Rat) (P : List (Int × Int × Int)) (s : C01Slices) : Prop :=
  ∀ k, (s k).Nodup ∧ ∀ e : Int × Int × Int, e ∈ s k ↔ e.1 = k - (overlapOf il cl).x ∧
    ∃ x, (x, e.2.1, e.2.2) ∈ P ∧ x ≤ e.1 ∧ e.1 ≤ x.natAbs ∧ (gapVec cl x e.2.1 e.2.2).dot (gapVec cl x e.2.1 e.2.2) ≤ il * il

theorem flat_yz_inj {dims : V3 Nat} {x y z y' z' ovy : Int} (hx : 1 ≤ dims.x) (hd : 2 * ovy + 1 ≤ dims.y)
    (hy : -ovy ≤ y ∧ y ≤ ovy) (hy' : -ovy ≤ y' ∧ y' ≤ ovy)
    (h : threeToOneDInt x y z dims.toInt = threeToOneDInt x y' z' dims.toInt) : y = y' ∧ z = z' := by
  unfold threeToOneDInt V3.toInt at h
  simp only at h
  have hx' : (1 : Int) ≤ dims.x := by exact_mod_cast hx
  have h1 : ((dims.x : Nat) : Int) * ((z - z') * dims.y + (y - y')) = 0 := by linear_combination h
  have h2 : (z - z') * (dims.y : Int) + (y - y') = 0 := by
    rcases Int.mul_eq_zero.1 h1 with h0 | h0
    · omega
    · exact h0
  have hz : z = z' := by
    rcases Int.lt_trichotomy z z' with hlt | heq | hgt
    · have : (z - z') * (dims.y : Int) ≤ (-1) * dims.y := Int.mul_le_mul_of_nonneg_right (by omega) (by omega)
      omega
    · exact heq
    · have : 1 * (dims.y : Int) ≤ (z - z') * dims.y := Int.mul_le_mul_of_nonneg_right (by omega) (by omega)
      omega
  subst hz
  simp at h2
  exact ⟨by omega, rfl⟩

theorem c01Step_inv {dims : V3 Nat} {cl : V3 Rat} {il : Rat} (h : C18Dims dims cl il) {P : List (Int × Int × Int)}
    {s : C01Slices} {t : Int × Int × Int} (hinv : C01Inv cl il P s)
    (hP : ∀ p ∈ P, -(overlapOf il cl).y ≤ p.2.1 ∧ p.2.1 ≤ (overlapOf il cl).y)
    (ht : (-(overlapOf il cl).x ≤ t.1 ∧ t.1 ≤ 0) ∧ (-(overlapOf il cl).y ≤ t.2.1 ∧ t.2.1 ≤ (overlapOf il cl).y))
    (hord : ∀ p ∈ P, p.2 = t.2 → p.1 < t.1) : C01Inv cl il (P ++ [t]) (c01Step dims cl il s t) := by
  obtain ⟨x, y, z⟩ := t
  simp only at ht hord
  obtain ⟨o1, o2, o3⟩ := h.pos.ov
  have hdx := h.x
  unfold c01Step
  simp only
  split_ifs with hg hc
  · -- already contained
    obtain ⟨e, he, hfe⟩ := List.any_eq_true.1 hc
    obtain ⟨ex, ey, ez⟩ := e
    rw [(hinv _).2] at he
    obtain ⟨hex, x', hx'P, hx1, hx2, hx3⟩ := he
    simp only [beq_iff_eq] at hfe
    simp only at hex hx'P hx1 hx2 hx3
    have hexx : ex = x := by omega
    subst hexx
    have := flat_yz_inj (by omega) h.y (hP _ hx'P) ht.2 hfe
    obtain ⟨rfl, rfl⟩ := this
    intro k
    refine ⟨(hinv k).1, fun e => ?_⟩
    rw [(hinv k).2]
    constructor
    · rintro ⟨h1, w, hw, h2⟩
      exact ⟨h1, w, List.mem_append_left _ hw, h2⟩
    · rintro ⟨h1, w, hw, h2, h3, h4⟩
      refine ⟨h1, ?_⟩
      rcases List.mem_append.1 hw with hw | hw
      · exact ⟨w, hw, h2, h3, h4⟩
      · simp only [List.mem_singleton, Prod.mk.injEq] at hw
        obtain ⟨rfl, h5, h6⟩ := hw
        refine ⟨x', ?_, by omega, by omega, ?_⟩
        · rw [h5, h6]; exact hx'P
        · rw [h5, h6]; exact hx3
  · -- inserted
    have hnew : ∀ w, (w, y, z) ∈ P → (gapVec cl w y z).dot (gapVec cl w y z) ≤ il * il → False := by
      intro w hw hwg
      apply hc
      rw [List.any_eq_true]
      refine ⟨(x, y, z), ?_, by simp⟩
      rw [(hinv _).2]
      have := hord _ hw rfl
      simp only at this
      exact ⟨by simp only; omega, w, hw, by simp only; omega, by simp only; omega, hwg⟩
    intro k
    rw [c01AddIx_fold _ _ _ _ (nodup_forInt _ _) (fun i hi => by rw [mem_forInt] at hi; omega)]
    have hmem : ∀ e : Int × Int × Int, e ∈ s k → ¬ (e.2.1 = y ∧ e.2.2 = z) := by
      rintro e he ⟨rfl, rfl⟩
      rw [(hinv k).2] at he
      obtain ⟨-, w, hw, -, -, hwg⟩ := he
      exact hnew w hw hwg
    have hmem' : ∀ a, (a, y, z) ∉ s k := fun a ha => hmem _ ha ⟨rfl, rfl⟩
    constructor
    · split_ifs
      · exact List.nodup_cons.2 ⟨hmem' _, (hinv k).1⟩
      · rw [List.nodup_append]
        refine ⟨(hinv k).1, by simp, ?_⟩
        intro a ha b hb
        simp only [List.mem_singleton] at hb
        rintro rfl
        rw [hb] at ha
        exact hmem' _ ha
      · exact (hinv k).1
    · rintro ⟨ex, ey, ez⟩
      have hin : ((ex, ey, ez) ∈ if (k : Int) - (overlapOf il cl).x ∈ forInt x x.natAbs then
          (if y = 0 ∧ z = 0 then ((k : Int) - (overlapOf il cl).x, y, z) :: s k else s k ++ [((k : Int) - (overlapOf il cl).x, y, z)])
          else s k) ↔ ((ex, ey, ez) ∈ s k ∨ (ex = (k : Int) - (overlapOf il cl).x ∧ ey = y ∧ ez = z ∧ x ≤ ex ∧ ex ≤ x.natAbs)) := by
        split_ifs with h1 h2 <;> rw [mem_forInt] at h1
        · simp only [List.mem_cons, Prod.mk.injEq]
          constructor
          · rintro (⟨rfl, rfl, rfl⟩ | hh)
            · exact Or.inr ⟨rfl, rfl, rfl, h1.1, h1.2⟩
            · exact Or.inl hh
          · rintro (hh | ⟨rfl, rfl, rfl, -⟩)
            · exact Or.inr hh
            · exact Or.inl ⟨rfl, rfl, rfl⟩
        · simp only [List.mem_append, List.mem_singleton, Prod.mk.injEq]
          constructor
          · rintro (hh | ⟨rfl, rfl, rfl⟩)
            · exact Or.inl hh
            · exact Or.inr ⟨rfl, rfl, rfl, h1.1, h1.2⟩
          · rintro (hh | ⟨rfl, rfl, rfl, -⟩)
            · exact Or.inl hh
            · exact Or.inr ⟨rfl, rfl, rfl⟩
        · constructor
          · exact Or.inl
          · rintro (hh | ⟨rfl, rfl, rfl, h3, h4⟩)
            · exact hh
            · exact absurd ⟨h3, h4⟩ h1
      rw [hin, (hinv k).2]
      simp only
      constructor
      · rintro (⟨h1, w, hw, h2⟩ | ⟨rfl, rfl, rfl, h3, h4⟩)
        · exact ⟨h1, w, List.mem_append_left _ hw, h2⟩
        · exact ⟨rfl, x, by simp, h3, h4, hg⟩
      · rintro ⟨h1, w, hw, h2, h3, h4⟩
        rcases List.mem_append.1 hw with hw | hw
        · exact Or.inl ⟨h1, w, hw, h2, h3, h4⟩
        · simp only [List.mem_singleton, Prod.mk.injEq] at hw
          obtain ⟨rfl, rfl, rfl⟩ := hw
          exact Or.inr ⟨h1, rfl, rfl, h2, h3⟩
  · -- too far
    intro k
    refine ⟨(hinv k).1, fun e => ?_⟩
    rw [(hinv k).2]
    constructor
    · rintro ⟨h1, w, hw, h2⟩
      exact ⟨h1, w, List.mem_append_left _ hw, h2⟩
    · rintro ⟨h1, w, hw, h2, h3, h4⟩
      refine ⟨h1, ?_⟩
      rcases List.mem_append.1 hw with hw | hw
      · exact ⟨w, hw, h2, h3, h4⟩
      · simp only [List.mem_singleton, Prod.mk.injEq] at hw
        obtain ⟨rfl, h5, h6⟩ := hw
        rw [h5, h6] at h4
        exact absurd h4 hg

theorem mem_c01Loop {ov : V3 Int} {x y z : Int} : (x, y, z) ∈ c01Loop ov ↔
    (-ov.x ≤ x ∧ x ≤ 0) ∧ (-ov.y ≤ y ∧ y ≤ ov.y) ∧ (-ov.z ≤ z ∧ z ≤ ov.z) := by
  simp only [c01Loop, List.mem_flatMap, List.mem_map, mem_forInt]
  constructor
  · rintro ⟨x', hx, y', hy, z', hz, he⟩
    simp only [Prod.mk.injEq] at he
    obtain ⟨rfl, rfl, rfl⟩ := he
    exact ⟨hx, hy, hz⟩
  · rintro ⟨hx, hy, hz⟩
    exact ⟨x, hx, y, hy, z, hz, rfl⟩

theorem sorted_forInt (a b : Int) : (forInt a b).Pairwise (· < ·) := by
  unfold forInt
  rw [List.pairwise_map]
  refine List.Pairwise.imp ?_ (List.pairwise_lt_range)
  intro x y hxy; omega

theorem c01Loop_pairwise (ov : V3 Int) : (c01Loop ov).Pairwise (fun p q => p.2 = q.2 → p.1 < q.1) := by
  unfold c01Loop
  rw [List.flatMap_def, List.pairwise_flatten]
  constructor
  · intro l hl
    rw [List.mem_map] at hl
    obtain ⟨x, -, rfl⟩ := hl
    rw [List.flatMap_def, List.pairwise_flatten]
    constructor
    · intro l hl
      rw [List.mem_map] at hl
      obtain ⟨y, -, rfl⟩ := hl
      rw [List.pairwise_map]
      refine List.Pairwise.imp ?_ (nodup_forInt (-ov.z) ov.z)
      intro a b hab h
      simp only [Prod.mk.injEq, true_and] at h
      exact absurd h hab
    · rw [List.pairwise_map]
      refine List.Pairwise.imp ?_ (nodup_forInt (-ov.y) ov.y)
      intro a b hab p hp q hq h
      rw [List.mem_map] at hp hq
      obtain ⟨z, -, rfl⟩ := hp
      obtain ⟨z', -, rfl⟩ := hq
      simp only [Prod.mk.injEq] at h
      exact absurd h.1 hab
  · rw [List.pairwise_map]
    refine List.Pairwise.imp ?_ (sorted_forInt (-ov.x) 0)
    intro a b hab p hp q hq _
    simp only [List.mem_flatMap, List.mem_map] at hp hq
    obtain ⟨y, -, z, -, rfl⟩ := hp
    obtain ⟨y', -, z', -, rfl⟩ := hq
    exact hab

theorem c01_fold_inv {dims : V3 Nat} {cl : V3 Rat} {il : Rat} (h : C18Dims dims cl il) (L P : List (Int × Int × Int))
    (s : C01Slices) (hinv : C01Inv cl il P s) (hpw : (P ++ L).Pairwise (fun p q => p.2 = q.2 → p.1 < q.1))
    (hmem : ∀ t ∈ P ++ L, (-(overlapOf il cl).x ≤ t.1 ∧ t.1 ≤ 0) ∧ (-(overlapOf il cl).y ≤ t.2.1 ∧ t.2.1 ≤ (overlapOf il cl).y)) :
    C01Inv cl il (P ++ L) (L.foldl (c01Step dims cl il) s) := by
  induction L generalizing P s with
  | nil => simpa using hinv
  | cons t L ih =>
    rw [List.foldl_cons]
    have e : P ++ t :: L = (P ++ [t]) ++ L := by simp
    rw [e] at hpw hmem ⊢
    refine ih (P ++ [t]) _ ?_ hpw hmem
    refine c01Step_inv h hinv ?_ (hmem t (by simp)) ?_
    · intro p hp
      exact (hmem p (by simp [hp])).2
    · intro p hp
      rw [List.pairwise_append, List.pairwise_append] at hpw
      exact hpw.1.2.2 p hp t (by simp)

theorem gapVec_mono {cl : V3 Rat} (hx : 0 < cl.x) {x x' y z : Int} (h : x.natAbs ≤ x'.natAbs) :
    (gapVec cl x y z).dot (gapVec cl x y z) ≤ (gapVec cl x' y z).dot (gapVec cl x' y z) := by
  unfold gapVec V3.dot
  simp only
  have h1 : (0 : Rat) ≤ ((max 0 ((x.natAbs : Int) - 1) : Int) : Rat) := by exact_mod_cast (le_max_left _ _)
  have h2 : ((max 0 ((x.natAbs : Int) - 1) : Int) : Rat) ≤ ((max 0 ((x'.natAbs : Int) - 1) : Int) : Rat) := by
    exact_mod_cast (by omega : max 0 ((x.natAbs : Int) - 1) ≤ max 0 ((x'.natAbs : Int) - 1))
  have h3 := mul_le_mul h2 (le_refl cl.x) hx.le (h1.trans h2)
  have h4 := mul_le_mul h3 h3 (mul_nonneg h1 hx.le) ((mul_nonneg h1 hx.le).trans h3)
  linarith

theorem c01_slices_inv {dims : V3 Nat} {cl : V3 Rat} {il : Rat} (h : C18Dims dims cl il) :
    C01Inv cl il (c01Loop (overlapOf il cl)) (c01Slices dims cl il) := by
  have := c01_fold_inv h (c01Loop (overlapOf il cl)) [] (fun _ => []) ?_ (c01Loop_pairwise _) ?_
  · exact this
  · intro k
    simp
  · rintro ⟨x, y, z⟩ ht
    rw [List.nil_append, mem_c01Loop] at ht
    exact ⟨ht.1, ht.2.1⟩

theorem mem_c01Entries {dims : V3 Nat} {cl : V3 Rat} {il : Rat} (h : C18Dims dims cl il) {x y z : Int} :
    (x, y, z) ∈ c01Entries dims cl il ↔
      (-(overlapOf il cl).x ≤ x ∧ x ≤ (overlapOf il cl).x) ∧ (-(overlapOf il cl).y ≤ y ∧ y ≤ (overlapOf il cl).y) ∧
      (-(overlapOf il cl).z ≤ z ∧ z ≤ (overlapOf il cl).z) ∧ (gapVec cl x y z).dot (gapVec cl x y z) ≤ il * il := by
  obtain ⟨o1, o2, o3⟩ := h.pos.ov
  simp only [c01Entries, List.mem_flatMap, List.mem_range]
  constructor
  · rintro ⟨k, hk, he⟩
    rw [(c01_slices_inv h k).2] at he
    obtain ⟨h1, w, hw, h2, h3, h4⟩ := he
    rw [mem_c01Loop] at hw
    simp only at h1 hw h2 h3 h4
    exact ⟨by omega, hw.2.1, hw.2.2, (gapVec_mono h.pos.x (by omega)).trans h4⟩
  · rintro ⟨hx, hy, hz, hg⟩
    refine ⟨(x + (overlapOf il cl).x).toNat, by omega, ?_⟩
    rw [(c01_slices_inv h _).2]
    refine ⟨by simp only; omega, -(x.natAbs : Int), ?_, by simp only; omega, by simp only; omega, ?_⟩
    · rw [mem_c01Loop]; exact ⟨by omega, hy, hz⟩
    · exact (gapVec_mono h.pos.x (by omega)).trans hg

theorem nodup_c01Entries {dims : V3 Nat} {cl : V3 Rat} {il : Rat} (h : C18Dims dims cl il) :
    (c01Entries dims cl il).Nodup := by
  refine nodup_flatMap_key (fun t => (t.1 + (overlapOf il cl).x).toNat) List.nodup_range
    (fun k _ => (c01_slices_inv h k).1) ?_
  intro k _ e he
  rw [(c01_slices_inv h k).2] at he
  omega

def c01Q (dims : V3 Nat) (cl : V3 Rat) (il : Rat) : List (V3 Nat × Int × Int × Int) :=
  basePairs (c01Bases dims (overlapOf il cl).toNat).flatten (c01Entries dims cl il)

theorem mem_c01Q {dims : V3 Nat} {cl : V3 Rat} {il : Rat} (h : C18Dims dims cl il) {b : V3 Nat} {x y z : Int} :
    (b, x, y, z) ∈ c01Q dims cl il ↔
      (((overlapOf il cl).x ≤ b.x ∧ (b.x : Int) < dims.x - (overlapOf il cl).x) ∧
       ((overlapOf il cl).y ≤ b.y ∧ (b.y : Int) < dims.y - (overlapOf il cl).y) ∧
       ((overlapOf il cl).z ≤ b.z ∧ (b.z : Int) < dims.z - (overlapOf il cl).z)) ∧
      (-(overlapOf il cl).x ≤ x ∧ x ≤ (overlapOf il cl).x) ∧ (-(overlapOf il cl).y ≤ y ∧ y ≤ (overlapOf il cl).y) ∧
      (-(overlapOf il cl).z ≤ z ∧ z ≤ (overlapOf il cl).z) ∧ (gapVec cl x y z).dot (gapVec cl x y z) ≤ il * il := by
  obtain ⟨o1, o2, o3⟩ := h.pos.ov
  have hdx := h.x
  have hdy := h.y
  have hdz := h.z
  rw [c01Q, mem_basePairs, mem_c01Entries h, c01Bases, mem_colorTraversal (by simp) (by simp) (by simp)]
  simp only [InRange, V3.sub, V3.toNat]
  constructor
  · rintro ⟨hb, hr⟩; exact ⟨by omega, hr⟩
  · rintro ⟨hb, hr⟩; exact ⟨by omega, hr⟩

theorem c01_coded {dims : V3 Nat} {cl : V3 Rat} {il : Rat} (h : C18Dims dims cl il) :
    Coded dims (lcC01 dims cl il).flatten.flatten (c01Q dims cl il) (fun q => q.1) (fun q => shift q.1 q.2) := by
  refine ⟨nodup_basePairs (nodup_colorTraversal _ _ _) (nodup_c01Entries h), ?_, ?_,
    ⟨fun q => offsetSortDir cl q.2.1 q.2.2.1 q.2.2.2, ?_⟩⟩
  · rintro ⟨b, x, y, z⟩ hq
    rw [mem_c01Q h] at hq
    obtain ⟨o1, o2, o3⟩ := h.pos.ov
    unfold InGrid
    simp only; omega
  · rintro ⟨b, x, y, z⟩ hq
    rw [mem_c01Q h] at hq
    obtain ⟨o1, o2, o3⟩ := h.pos.ov
    refine ⟨?_, ?_, ?_⟩ <;> simp only [shift] <;> omega
  · unfold lcC01 c01Q basePairs
    rw [List.map_flatMap, ← List.map_flatten, ← List.flatMap_def]
    apply List.flatMap_congr
    intro b hb
    simp only [c01ProcessBaseCell, List.map_map]
    apply List.map_congr_left
    rintro ⟨x, y, z⟩ ht
    have hq : (b, x, y, z) ∈ c01Q dims cl il := mem_basePairs.2 ⟨hb, ht⟩
    rw [mem_c01Q h] at hq
    simp only [Function.comp, baseCellOp, mkOp]
    rw [flat_shift (by omega) (by omega) (by omega)]

theorem c01_unique {dims : V3 Nat} {cl : V3 Rat} {il : Rat} (h : C18Dims dims cl il) :
    ∀ q ∈ c01Q dims cl il, ∀ r ∈ c01Q dims cl il, q.1 = r.1 → shift q.1 q.2 = shift r.1 r.2 → q = r := by
  rintro ⟨b, s⟩ hq ⟨c, t⟩ hr e1 e2
  simp only at e1 e2
  subst e1
  obtain ⟨s1, s2, s3⟩ := s
  obtain ⟨t1, t2, t3⟩ := t
  rw [mem_c01Q h] at hq hr
  rw [shift_inj (by simp only; omega) (by simp only; omega) e2]

theorem c01_exists {dims : V3 Nat} {cl : V3 Rat} {il : Rat} (h : C18Dims dims cl il) {hw : Nat}
    (hwx : (overlapOf il cl).x ≤ hw) (hwy : (overlapOf il cl).y ≤ hw) (hwz : (overlapOf il cl).z ≤ hw)
    {a b : V3 Nat} (hh : ¬ IsHalo hw dims a)
    (hov : WithinOverlap (overlapOf il cl).toNat a b) (hgap : cellGapSq cl a b ≤ il * il) :
    ∃ q ∈ c01Q dims cl il, q.1 = a ∧ shift q.1 q.2 = b := by
  obtain ⟨o1, o2, o3⟩ := h.pos.ov
  unfold IsHalo at hh
  unfold WithinOverlap axisDist V3.toNat at hov
  simp only at hov
  obtain ⟨v1, v2, v3⟩ := hov
  have hs : shift a ((b.x : Int) - a.x, (b.y : Int) - a.y, (b.z : Int) - a.z) = b := by
    rcases b with ⟨bx, by', bz⟩
    simp only [shift, V3.mk.injEq]; omega
  refine ⟨(a, (b.x : Int) - a.x, (b.y : Int) - a.y, (b.z : Int) - a.z), ?_, rfl, hs⟩
  rw [mem_c01Q h]
  refine ⟨by omega, ?_, ?_, ?_, ?_⟩
  · split at v1 <;> omega
  · split at v2 <;> omega
  · split at v3 <;> omega
  · rw [gap_eq (a := a) (b := b)] <;> first | exact hgap | omega

theorem Coded.timesOrdered {α : Type} {dims : V3 Nat} {ops : List CellOp} {Q : List α} {f g : α → V3 Nat} [DecidableEq α]
    (h : Coded dims ops Q f g) {a b : V3 Nat} (ha : InGrid a dims) (hb : InGrid b dims) (hab : a ≠ b)
    (hex : ∃ q ∈ Q, f q = a ∧ g q = b)
    (huniq : ∀ q ∈ Q, ∀ r ∈ Q, f q = f r → g q = g r → q = r) :
    Spec.timesOrdered ops (threeToOneD a dims) (threeToOneD b dims) = 1 := by
  obtain ⟨d, rfl⟩ := h.eq
  unfold Spec.timesOrdered
  rw [List.countP_map]
  obtain ⟨q, hq, hm⟩ := hex
  have hne : f q ≠ g q := by rw [hm.1, hm.2]; exact hab
  refine countP_eq_one_of_unique h.nodup hq ?_ ?_
  · have hne' : ¬ ((threeToOneD (f q) dims : Int) = threeToOneD (g q) dims) := by
      rw [flat_iff (h.gridf q hq) (h.gridg q hq)]; exact hne
    simp only [Function.comp, mkOp, if_neg hne']
    simp [hm.1, hm.2]
  · intro r hr hp
    simp only [Function.comp, mkOp] at hp
    split_ifs at hp with e
    simp only [decide_eq_true_eq, flat_iff (h.gridf r hr) ha, flat_iff (h.gridg r hr) hb] at hp
    exact huniq r hr q hq (hp.1.trans hm.1.symm) (hp.2.trans hm.2.symm)

end Verif
