import Verif.Model.ColorTraversal
import Verif.Lemmas.Basic
import Verif.Lemmas.Mapping
import Verif.Lemmas.Nodup
namespace Verif
open Spec

theorem mem_colorCells {fin stride offset : V3 Nat} {col : Nat} {c : V3 Nat}
    (hx : 0 < stride.x) (hy : 0 < stride.y) (hz : 0 < stride.z) :
    c ∈ colorCells fin stride offset col ↔
      ((oneToThreeD col stride).x + offset.x ≤ c.x ∧ c.x < fin.x ∧ (c.x - ((oneToThreeD col stride).x + offset.x)) % stride.x = 0) ∧
      ((oneToThreeD col stride).y + offset.y ≤ c.y ∧ c.y < fin.y ∧ (c.y - ((oneToThreeD col stride).y + offset.y)) % stride.y = 0) ∧
      ((oneToThreeD col stride).z + offset.z ≤ c.z ∧ c.z < fin.z ∧ (c.z - ((oneToThreeD col stride).z + offset.z)) % stride.z = 0) := by
  simp only [colorCells, List.mem_flatMap, List.mem_map, mem_forUp hx, mem_forUp hy, mem_forUp hz]
  constructor
  · rintro ⟨z, hz, y, hy, x, hx, rfl⟩; exact ⟨hx, hy, hz⟩
  · rintro ⟨hx, hy, hz⟩; exact ⟨c.z, hz, c.y, hy, c.x, hx, rfl⟩

/-- One axis of the colour condition: reachable from the start of the colour iff the residue matches. -/
theorem residue_iff {s o c st : Nat} (hs : s < st) :
    (s + o ≤ c ∧ (c - (s + o)) % st = 0) ↔ (o ≤ c ∧ (c - o) % st = s) := by
  constructor
  · rintro ⟨h1, h2⟩
    refine ⟨by omega, ?_⟩
    have : c - o = (c - (s + o)) + s := by omega
    rw [this, Nat.add_mod, h2, Nat.zero_add, Nat.mod_mod, Nat.mod_eq_of_lt hs]
  · rintro ⟨h1, h2⟩
    have hle : s ≤ c - o := by rw [← h2]; exact Nat.mod_le _ _
    refine ⟨by omega, ?_⟩
    have e : c - (s + o) = (c - o) - (c - o) % st := by omega
    rw [e]
    have := Nat.div_add_mod (c - o) st
    have e2 : (c - o) - (c - o) % st = st * ((c - o) / st) := by omega
    rw [e2, Nat.mul_mod_right]

theorem mem_colorCells' {fin stride offset : V3 Nat} {col : Nat} {c : V3 Nat}
    (hcol : col < stride.x * stride.y * stride.z) :
    c ∈ colorCells fin stride offset col ↔
      (offset.x ≤ c.x ∧ c.x < fin.x) ∧ (offset.y ≤ c.y ∧ c.y < fin.y) ∧ (offset.z ≤ c.z ∧ c.z < fin.z) ∧
      oneToThreeD col stride = ⟨(c.x - offset.x) % stride.x, (c.y - offset.y) % stride.y, (c.z - offset.z) % stride.z⟩ := by
  obtain ⟨hb, -, -⟩ := oneToThreeD_bounds (dims := stride) hcol
  have hx : 0 < stride.x := by have := hb.1; omega
  have hy : 0 < stride.y := by have := hb.2.1; omega
  have hz : 0 < stride.z := by have := hb.2.2; omega
  rw [mem_colorCells hx hy hz]
  have rx := @residue_iff _ offset.x c.x _ hb.1
  have ry := @residue_iff _ offset.y c.y _ hb.2.1
  have rz := @residue_iff _ offset.z c.z _ hb.2.2
  generalize hO : oneToThreeD col stride = s at *
  rcases s with ⟨sx, sy, sz⟩
  simp only [V3.mk.injEq] at *
  constructor
  · rintro ⟨⟨a1, a2, a3⟩, ⟨b1, b2, b3⟩, ⟨c1, c2, c3⟩⟩
    have := rx.1 ⟨a1, a3⟩; have := ry.1 ⟨b1, b3⟩; have := rz.1 ⟨c1, c3⟩
    refine ⟨⟨by omega, a2⟩, ⟨by omega, b2⟩, ⟨by omega, c2⟩, by omega, by omega, by omega⟩
  · rintro ⟨⟨a1, a2⟩, ⟨b1, b2⟩, ⟨c1, c2⟩, h1, h2, h3⟩
    have := rx.2 ⟨a1, h1.symm⟩; have := ry.2 ⟨b1, h2.symm⟩; have := rz.2 ⟨c1, h3.symm⟩
    refine ⟨⟨by omega, a2, by omega⟩, ⟨by omega, b2, by omega⟩, ⟨by omega, c2, by omega⟩⟩

theorem nodup_colorCells (fin stride offset : V3 Nat) (col : Nat) : (colorCells fin stride offset col).Nodup := by
  unfold colorCells
  refine nodup_flatMap_key (fun c => c.z) (nodup_forUp _ _ _) ?_ ?_
  · intro z _
    refine nodup_flatMap_key (fun c => c.y) (nodup_forUp _ _ _) ?_ ?_
    · intro y _
      refine List.Nodup.map ?_ (nodup_forUp _ _ _)
      intro a b h; simpa using h
    · intro y _ c hc
      rw [List.mem_map] at hc; obtain ⟨x, _, rfl⟩ := hc; rfl
  · intro z _ c hc
    rw [List.mem_flatMap] at hc
    obtain ⟨y, _, hc⟩ := hc
    rw [List.mem_map] at hc; obtain ⟨x, _, rfl⟩ := hc; rfl

/-- In-range predicate of a colour traversal. -/
def InRange (c fin offset : V3 Nat) : Prop :=
  (offset.x ≤ c.x ∧ c.x < fin.x) ∧ (offset.y ≤ c.y ∧ c.y < fin.y) ∧ (offset.z ≤ c.z ∧ c.z < fin.z)

theorem mem_colorTraversal {fin stride offset c : V3 Nat}
    (hx : 0 < stride.x) (hy : 0 < stride.y) (hz : 0 < stride.z) :
    c ∈ (colorTraversal fin stride offset).flatten ↔ InRange c fin offset := by
  simp only [colorTraversal, List.mem_flatten, List.mem_map, List.mem_range]
  constructor
  · rintro ⟨l, ⟨col, hcol, rfl⟩, hc⟩
    rw [mem_colorCells' hcol] at hc
    exact ⟨hc.1, hc.2.1, hc.2.2.1⟩
  · intro h
    let r : V3 Nat := ⟨(c.x - offset.x) % stride.x, (c.y - offset.y) % stride.y, (c.z - offset.z) % stride.z⟩
    have hr : InGrid r stride := ⟨Nat.mod_lt _ hx, Nat.mod_lt _ hy, Nat.mod_lt _ hz⟩
    have hlt := flat_lt hr
    unfold numCells at hlt
    refine ⟨_, ⟨threeToOneD r stride, hlt, rfl⟩, ?_⟩
    rw [mem_colorCells' hlt, oneToThreeD_threeToOneD hr]
    exact ⟨h.1, h.2.1, h.2.2, rfl⟩

theorem nodup_colorTraversal (fin stride offset : V3 Nat) :
    (colorTraversal fin stride offset).flatten.Nodup := by
  rw [colorTraversal, ← List.flatMap_def]
  refine nodup_flatMap_key
    (fun c => threeToOneD ⟨(c.x - offset.x) % stride.x, (c.y - offset.y) % stride.y, (c.z - offset.z) % stride.z⟩ stride)
    List.nodup_range (fun col _ => nodup_colorCells _ _ _ _) ?_
  intro col hcol c hc
  rw [List.mem_range] at hcol
  rw [mem_colorCells' hcol] at hc
  rw [← hc.2.2.2]
  exact (oneToThreeD_bounds (dims := stride) hcol).2.1

/-- Two cells of one colour have the same residues. -/
theorem color_residues {fin stride offset : V3 Nat} {colour : List (V3 Nat)} (hc : colour ∈ colorTraversal fin stride offset)
    {a b : V3 Nat} (ha : a ∈ colour) (hb : b ∈ colour) :
    InRange a fin offset ∧ InRange b fin offset ∧
    (a.x - offset.x) % stride.x = (b.x - offset.x) % stride.x ∧
    (a.y - offset.y) % stride.y = (b.y - offset.y) % stride.y ∧
    (a.z - offset.z) % stride.z = (b.z - offset.z) % stride.z := by
  simp only [colorTraversal, List.mem_map, List.mem_range] at hc
  obtain ⟨col, hcol, rfl⟩ := hc
  rw [mem_colorCells' hcol] at ha hb
  obtain ⟨a1, a2, a3, ha⟩ := ha
  obtain ⟨b1, b2, b3, hb⟩ := hb
  rw [ha] at hb
  simp only [V3.mk.injEq] at hb
  exact ⟨⟨a1, a2, a3⟩, ⟨b1, b2, b3⟩, hb⟩

end Verif
