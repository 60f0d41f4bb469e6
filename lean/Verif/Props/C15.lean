import Verif.Props.C14
/-!
# C15 — lc_sliced_c02: concurrently processed slices are disjoint and everything is covered once
-/
namespace Verif
open Spec

theorem c02_perm_slices (g : Nat → List α) (n : Nat) :
    ([0, 1].map fun offset => (forUp offset n 2).map g).flatten.flatten.Perm ((List.range n).flatMap g) := by
  simp only [List.map_cons, List.map_nil, List.flatten_cons, List.flatten_nil, List.append_nil]
  rw [← List.map_append, ← List.flatMap_def]
  apply List.Perm.flatMap_right
  rw [List.perm_ext_iff_of_nodup]
  · intro a
    simp only [List.mem_append, mem_forUp (show 0 < 2 by omega), List.mem_range]
    omega
  · rw [List.nodup_append]
    refine ⟨nodup_forUp _ _ _, nodup_forUp _ _ _, ?_⟩
    intro a ha b hb
    rw [mem_forUp (by omega)] at ha hb
    omega
  · exact List.nodup_range

/-- The calls of `lc_sliced_c02` are exactly those of `lc_c08`, each equally often. -/
theorem lcSlicedC02_perm (dims : V3 Nat) (cl : V3 Rat) (il : Rat) (hil : 0 < il) (hx : 0 < cl.x) (hy : 0 < cl.y) (hz : 0 < cl.z)
    (hn : (overlapOf il cl).toNat.get (longestAxis dims) ≤ dims.get (longestAxis dims)) :
    (lcSlicedC02 dims cl il).flatten.flatten.Perm (lcC08 dims cl il).flatten.flatten := by
  have hpos : 0 < (overlapOf il cl).toNat.get (longestAxis dims) := by
    have h1 := overlap_pos hil hx
    have h2 := overlap_pos hil hy
    have h3 := overlap_pos hil hz
    unfold V3.get V3.toNat overlapOf
    split_ifs <;> (simp only; omega)
  have hS := sliceThickness_slices (forward := true) (ov := (overlapOf il cl).toNat.get (longestAxis dims)) hpos hn
  have hsum := hS.sum (le_refl _)
  unfold lcSlicedC02
  simp only
  have e := c02_perm_slices (fun slice => (sliceLayers (sliceThickness true (dims.get (longestAxis dims))
      ((overlapOf il cl).toNat.get (longestAxis dims)) ((overlapOf il cl).toNat.get (longestAxis dims))) slice).flatMap
      (layerBases true dims (overlapOf il cl).toNat)) (sliceThickness true (dims.get (longestAxis dims))
      ((overlapOf il cl).toNat.get (longestAxis dims)) ((overlapOf il cl).toNat.get (longestAxis dims))).length
  rw [← List.flatMap_assoc, slices_layers, hsum] at e
  refine packOps_perm ?_ (fun c => ?_)
  · exact e.symm.nodup (nodup_layers _ _ _)
  · exact e.mem_iff.trans mem_layers

/-- `lc_sliced_c02` processes every pair of different cells that may contain interacting particles and are not both halo
cells exactly once. -/
theorem C15_lc_sliced_c02_pair_exactly_once (dims : V3 Nat) (cl : V3 Rat) (il : Rat) (hw : Nat)
    (hil : 0 < il) (hx : 0 < cl.x) (hy : 0 < cl.y) (hz : 0 < cl.z)
    (hn : (overlapOf il cl).toNat.get (longestAxis dims) ≤ dims.get (longestAxis dims))
    (hox : (overlapOf il cl).x ≤ hw) (hoy : (overlapOf il cl).y ≤ hw) (hoz : (overlapOf il cl).z ≤ hw)
    (a b : V3 Nat) (ha : InGrid a dims) (hb : InGrid b dims) (hab : a ≠ b)
    (hov : WithinOverlap (overlapOf il cl).toNat a b) (hgap : cellGapSq cl a b ≤ il * il)
    (hh : ¬ (IsHalo hw dims a ∧ IsHalo hw dims b)) :
    timesPair (lcSlicedC02 dims cl il).flatten.flatten (threeToOneD a dims) (threeToOneD b dims) = 1 := by
  rw [← C07_lc_c08_pair_exactly_once dims cl il hw hil hx hy hz hox hoy hoz a b ha hb hab hov hgap hh]
  exact (lcSlicedC02_perm dims cl il hil hx hy hz hn).countP_eq _

/-- Every cell that is not a halo cell is processed with itself exactly once. -/
theorem C15_lc_sliced_c02_self_exactly_once (dims : V3 Nat) (cl : V3 Rat) (il : Rat) (hw : Nat)
    (hil : 0 < il) (hx : 0 < cl.x) (hy : 0 < cl.y) (hz : 0 < cl.z)
    (hn : (overlapOf il cl).toNat.get (longestAxis dims) ≤ dims.get (longestAxis dims))
    (hox : (overlapOf il cl).x ≤ hw) (hoy : (overlapOf il cl).y ≤ hw) (hoz : (overlapOf il cl).z ≤ hw)
    (a : V3 Nat) (ha : InGrid a dims) (hh : ¬ IsHalo hw dims a) :
    timesSelf (lcSlicedC02 dims cl il).flatten.flatten (threeToOneD a dims) = 1 := by
  unfold timesSelf
  rw [(lcSlicedC02_perm dims cl il hil hx hy hz hn).countP_eq]
  exact C07_lc_c08_self_exactly_once dims cl il hw hil hx hy hz hox hoy hoz a ha hh

/-- No pair of cells is processed twice. -/
theorem C15_lc_sliced_c02_pair_at_most_once (dims : V3 Nat) (cl : V3 Rat) (il : Rat)
    (hil : 0 < il) (hx : 0 < cl.x) (hy : 0 < cl.y) (hz : 0 < cl.z)
    (hn : (overlapOf il cl).toNat.get (longestAxis dims) ≤ dims.get (longestAxis dims))
    (a b : V3 Nat) (ha : InGrid a dims) (hb : InGrid b dims) (hab : a ≠ b) :
    timesPair (lcSlicedC02 dims cl il).flatten.flatten (threeToOneD a dims) (threeToOneD b dims) ≤ 1 := by
  unfold timesPair
  rw [(lcSlicedC02_perm dims cl il hil hx hy hz hn).countP_eq]
  exact C07_lc_c08_pair_at_most_once dims cl il hil hx hy hz a b ha hb hab

/-- In every colour, two different slices, which may run at the same time, touch disjoint sets of cells. -/
theorem C15_lc_sliced_c02_race_free (dims : V3 Nat) (cl : V3 Rat) (il : Rat)
    (hil : 0 < il) (hx : 0 < cl.x) (hy : 0 < cl.y) (hz : 0 < cl.z)
    (hn : (overlapOf il cl).toNat.get (longestAxis dims) ≤ dims.get (longestAxis dims))
    (colour : List (List CellOp)) (hc : colour ∈ lcSlicedC02 dims cl il)
    (n m : Nat) (hnl : n < colour.length) (hml : m < colour.length) (hnm : n ≠ m)
    (op₁ op₂ : CellOp) (h₁ : op₁ ∈ colour[n]) (h₂ : op₂ ∈ colour[m]) :
    ∀ i ∈ touched op₁, i ∉ touched op₂ := by
  have hpos : 0 < (overlapOf il cl).toNat.get (longestAxis dims) := by
    have h1 := overlap_pos hil hx
    have h2 := overlap_pos hil hy
    have h3 := overlap_pos hil hz
    unfold V3.get V3.toNat overlapOf
    split_ifs <;> (simp only; omega)
  have hS := sliceThickness_slices (forward := true) (ov := (overlapOf il cl).toNat.get (longestAxis dims)) hpos hn
  have hsum := hS.sum (le_refl _)
  unfold lcSlicedC02 packOps slicedC02Packs at hc
  simp only [List.map_map, List.mem_map] at hc
  generalize hth : sliceThickness true (dims.get (longestAxis dims))
      ((overlapOf il cl).toNat.get (longestAxis dims)) ((overlapOf il cl).toNat.get (longestAxis dims)) = thick at *
  obtain ⟨off, -, rfl⟩ := hc
  simp only [Function.comp, List.length_map] at hnl hml
  simp only [Function.comp, List.getElem_map, List.mem_flatMap] at h₁ h₂
  obtain ⟨b, ⟨d, hd, hb⟩, hop⟩ := h₁
  obtain ⟨b', ⟨e, he, hb'⟩, hop'⟩ := h₂
  have hss := nodup_getElem_ne (nodup_forUp off thick.length 2) hnl hml hnm
  have hs1 := List.getElem_mem hnl
  have hs2 := List.getElem_mem hml
  generalize (forUp off thick.length 2)[n] = s at *
  generalize (forUp off thick.length 2)[m] = s' at *
  rw [mem_forUp (by omega)] at hs1 hs2
  unfold sliceLayers at hd he
  rw [List.mem_map] at hd he
  obtain ⟨o, ho, rfl⟩ := hd
  obtain ⟨o', ho', rfl⟩ := he
  rw [List.mem_range] at ho ho'
  have upper : ∀ s < thick.length, sliceStart thick s + thick.getD s 0 ≤ thick.sum := by
    intro s hs
    have h1 := sliceStart_succ hs
    have h2 := sliceStart_mono (thick := thick) (s := s + 1) (s' := thick.length) (by omega) (le_refl _)
    have h3 : sliceStart thick thick.length = thick.sum := by simp [sliceStart]
    omega
  have u1 := upper s (by omega)
  have u2 := upper s' (by omega)
  have far : ∀ s s' o o', s + 2 ≤ s' → s' < thick.length → o < thick.getD s 0 →
      sliceStart thick s + o + (overlapOf il cl).toNat.get (longestAxis dims) < sliceStart thick s' + o' := by
    intro s s' o o' h1 h2 h3
    have e1 := sliceStart_succ (thick := thick) (s := s) (by omega)
    have e2 := sliceStart_succ (thick := thick) (s := s + 1) (by omega)
    have e3 := sliceStart_mono (thick := thick) (s := s + 1 + 1) (s' := s') (by omega) (by omega)
    have e4 := hS.thick_ge (s := s + 1) (by omega)
    omega
  refine layers_disjoint ⟨hil, hx, hy, hz⟩ (by omega) (by omega) ?_ hb hb' hop hop'
  unfold axisDist
  rcases Nat.lt_or_gt_of_ne hss with h | h
  · have := far s s' o o' (by omega) (by omega) ho
    rw [if_pos (by omega)]
    omega
  · have := far s' s o' o (by omega) (by omega) ho'
    rw [if_neg (by omega)]
    omega

-- 9×6×6 cells of length 1 with interaction length 1
example : timesPair (lcSlicedC02 ⟨9, 6, 6⟩ ⟨1, 1, 1⟩ 1).flatten.flatten
    (threeToOneD ⟨1, 1, 1⟩ ⟨9, 6, 6⟩) (threeToOneD ⟨2, 2, 2⟩ ⟨9, 6, 6⟩) = 1 :=
  C15_lc_sliced_c02_pair_exactly_once ⟨9, 6, 6⟩ ⟨1, 1, 1⟩ 1 1 (by norm_num) (by norm_num) (by norm_num) (by norm_num)
    (by decide +kernel) (by decide +kernel) (by decide +kernel) (by decide +kernel)
    ⟨1, 1, 1⟩ ⟨2, 2, 2⟩ (by simp [InGrid]) (by simp [InGrid]) (by decide)
    (by unfold WithinOverlap; decide +kernel) (by norm_num [cellGapSq, axisGap, axisDist]) (by simp [IsHalo])

end Verif
