import Verif.Spec.CellPairs
import Verif.Lemmas.ColorTraversal
import Mathlib.Tactic.Linarith
import Mathlib.Tactic.Positivity
import Mathlib.Tactic.FieldSimp
import Mathlib.Algebra.Order.Field.Basic
/-! Lemmas shared by the pairwise traversals. -/
namespace Verif
open Spec

theorem countP_eq_one_of_unique {α : Type _} [DecidableEq α] {l : List α} {p : α → Bool} (h : l.Nodup) {q : α}
    (hq : q ∈ l) (hp : p q = true) (hu : ∀ r ∈ l, p r = true → r = q) : l.countP p = 1 := by
  have : l.countP p = l.count q := by
    rw [List.count]
    apply List.countP_congr
    intro r hr
    simp only [beq_iff_eq]
    exact ⟨hu r hr, fun e => by rw [e]; exact hp⟩
  rw [this]; exact List.count_eq_one_of_mem h hq

theorem countP_le_one_of_unique {α : Type _} [DecidableEq α] {l : List α} {p : α → Bool} (h : l.Nodup)
    (hu : ∀ r ∈ l, ∀ q ∈ l, p r = true → p q = true → r = q) : l.countP p ≤ 1 := by
  by_cases he : ∃ q ∈ l, p q = true
  · obtain ⟨q, hq, hp⟩ := he
    exact Nat.le_of_eq (countP_eq_one_of_unique h hq hp (fun r hr hpr => hu r hr q hq hpr hp))
  · have : l.countP p = 0 := by
      rw [List.countP_eq_zero]; intro a ha hpa; exact he ⟨a, ha, hpa⟩
    omega

theorem flatInt_add (b dims : V3 Nat) (x y z : Int) :
    (threeToOneD b dims : Int) + threeToOneDInt x y z dims.toInt =
      threeToOneDInt (b.x + x) (b.y + y) (b.z + z) dims.toInt := by
  unfold threeToOneD threeToOneDInt V3.toInt
  push_cast; ring

theorem flatInt_nat (c dims : V3 Nat) :
    threeToOneDInt c.x c.y c.z dims.toInt = (threeToOneD c dims : Int) := by
  unfold threeToOneD threeToOneDInt V3.toInt
  push_cast; ring

/-- Signed coordinates inside the grid have injective flat numbers. -/
theorem flatInt_inj {dims : V3 Nat} {x y z : Int} {c : V3 Nat} (hc : InGrid c dims)
    (hx : 0 ≤ x ∧ x < dims.x) (hy : 0 ≤ y ∧ y < dims.y) (hz : 0 ≤ z ∧ z < dims.z)
    (h : threeToOneDInt x y z dims.toInt = (threeToOneD c dims : Int)) :
    x = c.x ∧ y = c.y ∧ z = c.z := by
  have hg : InGrid ⟨x.toNat, y.toNat, z.toNat⟩ dims := ⟨by simp only; omega, by simp only; omega, by simp only; omega⟩
  have e : threeToOneDInt x y z dims.toInt = (threeToOneD ⟨x.toNat, y.toNat, z.toNat⟩ dims : Int) := by
    rw [← flatInt_nat]
    simp only [Int.toNat_of_nonneg hx.1, Int.toNat_of_nonneg hy.1, Int.toNat_of_nonneg hz.1]
  rw [e] at h
  have := flat_inj hg hc (by exact_mod_cast h)
  rw [← this]
  simp only
  omega

/-- Signed coordinates inside the grid are valid indices of the cell array. -/
theorem flatInt_bounds {dims : V3 Nat} {x y z : Int}
    (hx : 0 ≤ x ∧ x < dims.x) (hy : 0 ≤ y ∧ y < dims.y) (hz : 0 ≤ z ∧ z < dims.z) :
    ∃ c : V3 Nat, InGrid c dims ∧ (c.x : Int) = x ∧ (c.y : Int) = y ∧ (c.z : Int) = z ∧
      threeToOneDInt x y z dims.toInt = (threeToOneD c dims : Int) := by
  refine ⟨⟨x.toNat, y.toNat, z.toNat⟩, ⟨by simp only; omega, by simp only; omega, by simp only; omega⟩,
    by simp only; omega, by simp only; omega, by simp only; omega, ?_⟩
  rw [← flatInt_nat]
  simp only [Int.toNat_of_nonneg hx.1, Int.toNat_of_nonneg hy.1, Int.toNat_of_nonneg hz.1]

theorem overlap_pos {il len : Rat} (hil : 0 < il) (hl : 0 < len) : 1 ≤ ⌈il / len⌉ := by
  have : 0 < il / len := by positivity
  have := Int.ceil_pos.2 this
  omega

/-- Expanding a colour/base-cell/operation structure into pairs (base cell, offset entry). -/
def basePairs {α : Type _} (bases : List (V3 Nat)) (idx : List α) : List (V3 Nat × α) :=
  bases.flatMap fun b => idx.map fun t => (b, t)

theorem nodup_basePairs {α : Type _} {bases : List (V3 Nat)} {idx : List α} (hb : bases.Nodup) (hi : idx.Nodup) :
    (basePairs bases idx).Nodup := by
  refine nodup_flatMap_key (fun p => p.1) hb ?_ ?_
  · intro b _
    exact List.Nodup.map (fun a c h => by simpa using h) hi
  · intro b _ p hp
    rw [List.mem_map] at hp; obtain ⟨t, _, rfl⟩ := hp; rfl

theorem mem_basePairs {α : Type _} {bases : List (V3 Nat)} {idx : List α} {b : V3 Nat} {t : α} :
    (b, t) ∈ basePairs bases idx ↔ b ∈ bases ∧ t ∈ idx := by
  simp [basePairs]

theorem axisGap_sq_eq (len : Rat) (a b : Nat) (n : Int) (h : n = (axisDist a b : Int)) :
    (max 0 ((n : Rat) - 1) * len) * (max 0 ((n : Rat) - 1) * len) = axisGap len a b ^ 2 := by
  subst h
  unfold axisGap
  have : max 0 (((axisDist a b : Int) : Rat) - 1) = ((axisDist a b - 1 : Nat) : Rat) := by
    rcases Nat.eq_zero_or_pos (axisDist a b) with h0 | h0
    · rw [h0]; norm_num
    · rw [Nat.cast_sub h0]
      push_cast
      apply max_eq_right
      have : (1 : Rat) ≤ (axisDist a b : Rat) := by exact_mod_cast h0
      linarith
  rw [this]; ring

end Verif

namespace Verif
open Spec

/-- Race freedom of one colour from disjoint footprints. -/
theorem colour_race_free {fin stride offset : V3 Nat} {f : V3 Nat → List CellOp} {F : V3 Nat → Int → Prop}
    (hF : ∀ col ∈ colorTraversal fin stride offset, ∀ b ∈ col, ∀ op ∈ f b, ∀ i ∈ touched op, F b i)
    (hdis : ∀ col ∈ colorTraversal fin stride offset, ∀ a ∈ col, ∀ b ∈ col, a ≠ b → ∀ i, F a i → F b i → False)
    {colour : List (List CellOp)} (hc : colour ∈ (colorTraversal fin stride offset).map fun c => c.map f)
    {n m : Nat} (hn : n < colour.length) (hm : m < colour.length) (hnm : n ≠ m)
    {op₁ op₂ : CellOp} (h₁ : op₁ ∈ colour[n]) (h₂ : op₂ ∈ colour[m]) :
    ∀ i ∈ touched op₁, i ∉ touched op₂ := by
  rw [List.mem_map] at hc
  obtain ⟨col, hcol, rfl⟩ := hc
  rw [List.length_map] at hn hm
  rw [List.getElem_map] at h₁ h₂
  have hne : col[n] ≠ col[m] := by
    intro h
    have hnd : col.Nodup := by
      simp only [colorTraversal, List.mem_map] at hcol
      obtain ⟨k, -, rfl⟩ := hcol
      exact nodup_colorCells _ _ _ _
    exact hnm ((List.Nodup.getElem_inj_iff hnd).1 h)
  intro i hi hi'
  exact hdis col hcol _ (List.getElem_mem hn) _ (List.getElem_mem hm) hne i
    (hF col hcol _ (List.getElem_mem hn) _ h₁ i hi) (hF col hcol _ (List.getElem_mem hm) _ h₂ i hi')

end Verif
