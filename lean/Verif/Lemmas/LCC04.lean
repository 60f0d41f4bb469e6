import Verif.Model.LCC04
import Verif.Lemmas.LCC08
import Mathlib.Data.List.Perm.Basic
import Mathlib.Tactic.IntervalCases
namespace Verif
open Spec

theorem nodup_flatMap_inj {α β : Type _} {l : List α} {f : α → List β} (hl : l.Nodup)
    (hf : ∀ x ∈ l, (f x).Nodup) (hk : ∀ x ∈ l, ∀ y ∈ l, ∀ b, b ∈ f x → b ∈ f y → x = y) : (l.flatMap f).Nodup := by
  rw [List.nodup_flatMap]
  refine ⟨hf, ?_⟩
  induction l with
  | nil => exact List.Pairwise.nil
  | cons a l ih =>
    rw [List.nodup_cons] at hl
    refine List.Pairwise.cons ?_ (ih hl.2 (fun x hx => hf x (List.mem_cons_of_mem _ hx))
      (fun x hx y hy => hk x (List.mem_cons_of_mem _ hx) y (List.mem_cons_of_mem _ hy)))
    intro x hx b hb hb'
    exact hl.1 (by rw [hk a List.mem_cons_self x (List.mem_cons_of_mem _ hx) b hb hb']; exact hx)

theorem mem_forIntStep {a b x : Int} {s : Nat} (hs : 0 < s) :
    x ∈ forIntStep a b s ↔ a ≤ x ∧ x < b ∧ (x - a) % s = 0 := by
  unfold forIntStep
  simp only [List.mem_map, List.mem_range]
  have hs' : (0 : Int) < s := by omega
  constructor
  · rintro ⟨k, hk, rfl⟩
    have h0 : (0 : Int) ≤ (s : Int) * k := by positivity
    refine ⟨by omega, ?_, ?_⟩
    · have hk' : (k : Int) < (b - a + (s - 1)) / s := by omega
      have : ((k : Int) + 1) * s ≤ b - a + (s - 1) := (Int.le_ediv_iff_mul_le hs').1 hk'
      nlinarith
    · rw [show a + (s : Int) * k - a = s * k by ring]
      exact Int.mul_emod_right _ _
  · rintro ⟨h1, h2, h3⟩
    obtain ⟨m, hm⟩ := Int.dvd_of_emod_eq_zero h3
    have hm0 : 0 ≤ m := by
      by_contra hneg
      have : m ≤ -1 := by omega
      nlinarith
    refine ⟨m.toNat, ?_, ?_⟩
    · have : m + 1 ≤ (b - a + (s - 1)) / s := (Int.le_ediv_iff_mul_le hs').2 (by nlinarith)
      omega
    · rw [Int.toNat_of_nonneg hm0]; omega

theorem nodup_forIntStep {a b : Int} {s : Nat} (hs : 0 < s) : (forIntStep a b s).Nodup := by
  unfold forIntStep
  refine List.Nodup.map ?_ List.nodup_range
  intro m n h
  have h : (s : Int) * m = s * n := by simpa using h
  have := Int.eq_of_mul_eq_mul_left (by omega : (s : Int) ≠ 0) h
  omega

/-- The 32 offsets: at most one coordinate is 0 or 3. -/
theorem mem_c04Offsets32 {x y z : Int} : (x, y, z) ∈ c04Offsets32 ↔
    (0 ≤ x ∧ x ≤ 3) ∧ (0 ≤ y ∧ y ≤ 3) ∧ (0 ≤ z ∧ z ≤ 3) ∧
    ¬ ((x = 0 ∨ x = 3) ∧ (y = 0 ∨ y = 3)) ∧ ¬ ((x = 0 ∨ x = 3) ∧ (z = 0 ∨ z = 3)) ∧ ¬ ((y = 0 ∨ y = 3) ∧ (z = 0 ∨ z = 3)) := by
  have h1 : ∀ t : Int × Int × Int, t ∈ c04Offsets32 →
      (0 ≤ t.1 ∧ t.1 ≤ 3) ∧ (0 ≤ t.2.1 ∧ t.2.1 ≤ 3) ∧ (0 ≤ t.2.2 ∧ t.2.2 ≤ 3) ∧
      ¬ ((t.1 = 0 ∨ t.1 = 3) ∧ (t.2.1 = 0 ∨ t.2.1 = 3)) ∧ ¬ ((t.1 = 0 ∨ t.1 = 3) ∧ (t.2.2 = 0 ∨ t.2.2 = 3)) ∧
      ¬ ((t.2.1 = 0 ∨ t.2.1 = 3) ∧ (t.2.2 = 0 ∨ t.2.2 = 3)) := by decide +kernel
  have h2 : ∀ a ∈ forInt 0 3, ∀ b ∈ forInt 0 3, ∀ c ∈ forInt 0 3,
      (¬ ((a = 0 ∨ a = 3) ∧ (b = 0 ∨ b = 3)) ∧ ¬ ((a = 0 ∨ a = 3) ∧ (c = 0 ∨ c = 3)) ∧
        ¬ ((b = 0 ∨ b = 3) ∧ (c = 0 ∨ c = 3))) → (a, b, c) ∈ c04Offsets32 := by decide +kernel
  constructor
  · intro h; exact h1 _ h
  · rintro ⟨hx, hy, hz, hr⟩
    exact h2 x (mem_forInt.2 hx) y (mem_forInt.2 hy) z (mem_forInt.2 hz) hr

theorem nodup_c04Offsets32 : c04Offsets32.Nodup := by decide +kernel

theorem mem_c04Pack32 {fin : V3 Int} {x y z : Int} {c : V3 Nat} : c ∈ c04Pack32 fin x y z ↔
    ((c.x : Int) - x, (c.y : Int) - y, (c.z : Int) - z) ∈ c04Offsets32 ∧ (c.x : Int) < fin.x ∧ (c.y : Int) < fin.y ∧ (c.z : Int) < fin.z := by
  unfold c04Pack32
  simp only [List.mem_flatMap]
  constructor
  · rintro ⟨⟨a, b, d⟩, ho, hc⟩
    simp only at hc
    split at hc
    · rename_i hh
      simp only [List.mem_singleton] at hc
      subst hc
      simp only [V3.natOf]
      obtain ⟨⟨h1, h2⟩, ⟨h3, h4⟩, h5, h6⟩ := hh
      rw [Int.toNat_of_nonneg h1, Int.toNat_of_nonneg h3, Int.toNat_of_nonneg h5]
      refine ⟨?_, h2, h4, h6⟩
      rw [show x + a - x = a by ring, show y + b - y = b by ring, show z + d - z = d by ring]
      exact ho
    · simp at hc
  · rintro ⟨ho, h1, h2, h3⟩
    refine ⟨_, ho, ?_⟩
    simp only
    rw [if_pos (by omega)]
    simp only [List.mem_singleton, V3.natOf]
    rcases c with ⟨cx, cy, cz⟩
    simp only [V3.mk.injEq] at *
    omega

theorem nodup_c04Pack32 (fin : V3 Int) (x y z : Int) : (c04Pack32 fin x y z).Nodup := by
  unfold c04Pack32
  refine nodup_flatMap_inj nodup_c04Offsets32 ?_ ?_
  · intro o _
    simp only
    split <;> simp
  · rintro ⟨a, b, c⟩ _ ⟨a', b', c'⟩ _ d hd hd'
    simp only at hd hd'
    split at hd <;> split at hd' <;> simp only [List.mem_singleton, List.not_mem_nil] at hd hd'
    rw [hd] at hd'
    simp only [V3.natOf, V3.mk.injEq, Prod.mk.injEq] at *
    omega

theorem mem_c04PackPositions {fin : V3 Int} {col : Nat} {x y z : Int} :
    (x, y, z) ∈ c04PackPositions fin col ↔
      (c04Start col ≤ x ∧ x < fin.x ∧ (x - c04Start col) % 4 = 0) ∧ (c04Start col ≤ y ∧ y < fin.y ∧ (y - c04Start col) % 4 = 0) ∧
      (c04Start col ≤ z ∧ z < fin.z ∧ (z - c04Start col) % 4 = 0) ∧
      (x + y + z + 24) % 8 = c04CorrectParity col := by
  have hs : c04Start col = -2 ∨ c04Start col = 0 := by unfold c04Start; split <;> simp
  have par : ∀ {a b c : Int}, -2 ≤ a → -2 ≤ b → -2 ≤ c → c04Parity a b c = (a + b + c + 24) % 8 := by
    intro a b c h1 h2 h3
    unfold c04Parity
    exact Int.tmod_eq_emod_of_nonneg (by omega)
  unfold c04PackPositions
  simp only [List.mem_flatMap, mem_forIntStep (show 0 < 4 by omega)]
  constructor
  · rintro ⟨z', hz, y', hy, x', hx, h⟩
    split at h
    · simp at h
    · rename_i hp
      simp only [List.mem_singleton, Prod.mk.injEq] at h
      obtain ⟨rfl, rfl, rfl⟩ := h
      rw [par (by omega) (by omega) (by omega)] at hp
      push_cast at *
      exact ⟨hx, hy, hz, by simpa using hp⟩
  · rintro ⟨hx, hy, hz, hp⟩
    refine ⟨z, by exact_mod_cast hz, y, by exact_mod_cast hy, x, by exact_mod_cast hx, ?_⟩
    rw [if_neg]
    · simp
    · rw [par (by omega) (by omega) (by omega)]
      simpa using hp

theorem c04CorrectParity_vals : c04CorrectParity 0 = 2 ∧ c04CorrectParity 1 = 0 ∧ c04CorrectParity 2 = 6 ∧
    c04CorrectParity 3 = 4 := by decide

theorem c04Start_vals : c04Start 0 = -2 ∧ c04Start 1 = 0 ∧ c04Start 2 = -2 ∧ c04Start 3 = 0 := by decide

theorem nodup_c04PackPositions (fin : V3 Int) (col : Nat) : (c04PackPositions fin col).Nodup := by
  unfold c04PackPositions
  refine nodup_flatMap_key (fun p => p.2.2) (nodup_forIntStep (by omega)) (fun z _ => ?_) ?_
  · refine nodup_flatMap_key (fun p => p.2.1) (nodup_forIntStep (by omega)) (fun y _ => ?_) ?_
    · refine nodup_flatMap_key (fun p => p.1) (nodup_forIntStep (by omega)) (fun x _ => ?_) ?_
      · split <;> simp
      · intro x _ p hp
        split at hp <;> simp at hp
        rw [hp]
    · intro y _ p hp
      simp only [List.mem_flatMap] at hp
      obtain ⟨x, _, hp⟩ := hp
      split at hp <;> simp at hp
      rw [hp]
  · intro z _ p hp
    simp only [List.mem_flatMap] at hp
    obtain ⟨y, _, x, _, hp⟩ := hp
    split at hp <;> simp at hp
    rw [hp]

theorem c04Packs_flatten (dims : V3 Nat) : (c04Packs dims).flatten.flatten =
    ((List.range 4).flatMap fun col => (c04PackPositions (c04End dims) col).map fun p => (col, p)).flatMap
      fun q => c04Pack32 (c04End dims) q.2.1 q.2.2.1 q.2.2.2 := by
  unfold c04Packs
  rw [← List.flatMap_def, List.flatten_eq_flatMap, List.flatMap_assoc, List.flatMap_assoc]
  congr 1
  funext col
  rw [List.flatMap_map, List.flatMap_map]
  rfl

/-- Every base cell is in exactly one pack. -/
theorem c04_tiling (dims : V3 Nat) : (c04Packs dims).flatten.flatten.Nodup ∧
    ∀ c, c ∈ (c04Packs dims).flatten.flatten ↔ c.x < dims.x - 1 ∧ c.y < dims.y - 1 ∧ c.z < dims.z - 1 := by
  rw [c04Packs_flatten]
  constructor
  · refine nodup_flatMap_inj ?_ (fun _ _ => nodup_c04Pack32 _ _ _ _) ?_
    · refine nodup_flatMap_key (fun q => q.1) List.nodup_range (fun col _ => ?_) ?_
      · exact (nodup_c04PackPositions _ _).map (fun a b h => by simpa using h)
      · intro col _ q hq
        rw [List.mem_map] at hq
        obtain ⟨p, _, rfl⟩ := hq
        rfl
    · rintro ⟨col, x, y, z⟩ hq ⟨col', x', y', z'⟩ hq' c hc hc'
      simp only [List.mem_flatMap, List.mem_map, List.mem_range, Prod.mk.injEq] at hq hq'
      obtain ⟨a, ha, ⟨x1, y1, z1⟩, hp, rfl, h⟩ := hq
      obtain ⟨a', ha', ⟨x1', y1', z1'⟩, hp', rfl, h'⟩ := hq'
      simp only [Prod.mk.injEq] at h h'
      obtain ⟨rfl, rfl, rfl⟩ := h
      obtain ⟨rfl, rfl, rfl⟩ := h'
      rw [mem_c04PackPositions] at hp
      rw [mem_c04PackPositions] at hp'
      simp only [mem_c04Pack32, mem_c04Offsets32] at hc hc'
      obtain ⟨hx, hy, hz, hpar⟩ := hp
      obtain ⟨hx', hy', hz', hpar'⟩ := hp'
      obtain ⟨⟨ox, oy, oz, o1, o2, o3⟩, -⟩ := hc
      obtain ⟨⟨ox', oy', oz', o1', o2', o3'⟩, -⟩ := hc'
      have hxyz : (x1 = x1' ∧ y1 = y1' ∧ z1 = z1') ∧ c04Start a = c04Start a' := by
        have hs : c04Start a = -2 ∨ c04Start a = 0 := by unfold c04Start; split <;> simp
        have hs' : c04Start a' = -2 ∨ c04Start a' = 0 := by unfold c04Start; split <;> simp
        clear hpar hpar'
        generalize c04Start a = s at *
        generalize c04Start a' = s' at *
        rcases hs with rfl | rfl <;> rcases hs' with rfl | rfl
        · refine ⟨⟨?_, ?_, ?_⟩, rfl⟩ <;> omega
        · exfalso; omega
        · exfalso; omega
        · refine ⟨⟨?_, ?_, ?_⟩, rfl⟩ <;> omega
      obtain ⟨⟨rfl, rfl, rfl⟩, hs⟩ := hxyz
      have : a = a' := by
        rw [hpar] at hpar'
        obtain ⟨p0, p1, p2, p3⟩ := c04CorrectParity_vals
        interval_cases a <;> interval_cases a' <;> simp only [p0, p1, p2, p3] at hpar' <;> omega
      simp only [this]
  · intro c
    simp only [List.mem_flatMap, List.mem_map, List.mem_range]
    constructor
    · rintro ⟨⟨col, x, y, z⟩, -, hc⟩
      rw [mem_c04Pack32] at hc
      simp only [c04End] at hc
      omega
    · intro hc
      have hd : (c.x : Int) < (dims.x : Int) - 1 ∧ (c.y : Int) < (dims.y : Int) - 1 ∧ (c.z : Int) < (dims.z : Int) - 1 := by omega
      -- which of the two interlinked grids
      by_cases hB : (((c.x : Int) % 4, (c.y : Int) % 4, (c.z : Int) % 4)) ∈ c04Offsets32
      · obtain ⟨col, hcol⟩ : ∃ col : Nat, col = if ((c.x : Int) - (c.x : Int) % 4 + (c.y - (c.y : Int) % 4) + (c.z - (c.z : Int) % 4)) % 8 = 0 then 1 else 3 := ⟨_, rfl⟩
        have hc4 : col < 4 := by split at hcol <;> omega
        refine ⟨(col, c.x - (c.x : Int) % 4, c.y - (c.y : Int) % 4, c.z - (c.z : Int) % 4), ⟨col, hc4, _, ?_, rfl⟩, ?_⟩
        · rw [mem_c04PackPositions]
          simp only [c04End]
          split at hcol <;> subst hcol <;> simp only [c04Start_vals, c04CorrectParity_vals] <;> omega
        · rw [mem_c04Pack32]
          simp only [sub_sub_cancel, c04End]
          exact ⟨hB, hd⟩
      · have hA : ((((c.x : Int) + 2) % 4, ((c.y : Int) + 2) % 4, ((c.z : Int) + 2) % 4)) ∈ c04Offsets32 := by
          rw [mem_c04Offsets32] at *
          omega
        obtain ⟨col, hcol⟩ : ∃ col : Nat, col = if ((c.x : Int) - ((c.x : Int) + 2) % 4 + (c.y - ((c.y : Int) + 2) % 4) + (c.z - ((c.z : Int) + 2) % 4) + 6) % 8 = 0 then 0 else 2 := ⟨_, rfl⟩
        have hc4 : col < 4 := by split at hcol <;> omega
        refine ⟨(col, c.x - ((c.x : Int) + 2) % 4, c.y - ((c.y : Int) + 2) % 4, c.z - ((c.z : Int) + 2) % 4), ⟨col, hc4, _, ?_, rfl⟩, ?_⟩
        · rw [mem_c04PackPositions]
          simp only [c04End]
          split at hcol <;> subst hcol <;> simp only [c04Start_vals, c04CorrectParity_vals] <;> omega
        · rw [mem_c04Pack32]
          simp only [sub_sub_cancel, c04End]
          exact ⟨hA, hd⟩

/-- Handing the base cells of `lc_c08` to the cell handler in another order yields the same calls. -/
theorem packOps_perm {dims : V3 Nat} {cl : V3 Rat} {il : Rat} {packs : List (List (List (V3 Nat)))}
    (hnd : packs.flatten.flatten.Nodup)
    (hmem : ∀ c, c ∈ packs.flatten.flatten ↔ c ∈ (c08Bases dims (overlapOf il cl).toNat).flatten) :
    (packOps dims cl il packs).flatten.flatten.Perm (lcC08 dims cl il).flatten.flatten := by
  have hp : packs.flatten.flatten.Perm (c08Bases dims (overlapOf il cl).toNat).flatten :=
    (List.perm_ext_iff_of_nodup hnd (nodup_colorTraversal _ _ _)).2 hmem
  have e1 : (packOps dims cl il packs).flatten.flatten = packs.flatten.flatten.flatMap (c08ProcessBaseCell dims cl il) := by
    unfold packOps
    rw [← List.map_flatten, ← List.flatMap_def]
    generalize packs.flatten = l
    rw [List.flatten_eq_flatMap (L := l), List.flatMap_assoc]
    rfl
  have e2 : (lcC08 dims cl il).flatten.flatten =
      (c08Bases dims (overlapOf il cl).toNat).flatten.flatMap (c08ProcessBaseCell dims cl il) := by
    unfold lcC08
    rw [← List.map_flatten, ← List.flatMap_def]
  rw [e1, e2]
  exact hp.flatMap_right _

/-- Cells touched while processing one base cell with the handler of `lc_c08`. -/
theorem c08_footprint {dims : V3 Nat} {cl : V3 Rat} {il : Rat} (hp : C08Pos cl il) {b : V3 Nat}
    (hb : b.x < dims.x - (overlapOf il cl).toNat.x ∧ b.y < dims.y - (overlapOf il cl).toNat.y ∧
      b.z < dims.z - (overlapOf il cl).toNat.z)
    {op : CellOp} (hop : op ∈ c08ProcessBaseCell dims cl il b) {i : Int} (hi : i ∈ touched op) :
    ∃ c : V3 Nat, InGrid c dims ∧ i = (threeToOneD c dims : Int) ∧
      (b.x ≤ c.x ∧ c.x ≤ b.x + (overlapOf il cl).toNat.x) ∧ (b.y ≤ c.y ∧ c.y ≤ b.y + (overlapOf il cl).toNat.y) ∧
      (b.z ≤ c.z ∧ c.z ≤ b.z + (overlapOf il cl).toNat.z) := by
  obtain ⟨o1, o2, o3⟩ := hp.ov
  have hb' : b ∈ (c08Bases dims (overlapOf il cl).toNat).flatten := c08Bases_mem.2 hb
  simp only [c08ProcessBaseCell, c08Offsets, List.mem_map] at hop
  obtain ⟨-, ⟨⟨x, y, z, d⟩, ht, rfl⟩, rfl⟩ := hop
  have hq : (b, x, y, z, d) ∈ c08Q dims cl il := mem_basePairs.2 ⟨hb', ht⟩
  obtain ⟨h1, h2, h3, h4, h5, h6⟩ := c08Q_bounds hp hq
  obtain ⟨e1, e2⟩ := c08_cells dims cl il b x y z d
  obtain ⟨A, hA, a1, a2, a3, fA⟩ := flatInt_bounds h1 h2 h3
  obtain ⟨B, hB, b1, b2, b3, fB⟩ := flatInt_bounds h4 h5 h6
  rw [fA] at e1; rw [fB] at e2
  rw [mem_c08Indices] at ht
  simp only [V3.toNat]
  have kA : (b.x ≤ A.x ∧ A.x ≤ b.x + (overlapOf il cl).x.toNat) ∧ (b.y ≤ A.y ∧ A.y ≤ b.y + (overlapOf il cl).y.toNat) ∧
      (b.z ≤ A.z ∧ A.z ≤ b.z + (overlapOf il cl).z.toNat) := by
    cases d <;> simp only [C08Dir.maskXY] at a1 a2 <;> omega
  have kB : (b.x ≤ B.x ∧ B.x ≤ b.x + (overlapOf il cl).x.toNat) ∧ (b.y ≤ B.y ∧ B.y ≤ b.y + (overlapOf il cl).y.toNat) ∧
      (b.z ≤ B.z ∧ B.z ≤ b.z + (overlapOf il cl).z.toNat) := by
    omega
  simp only [cellOpOf, e1, e2] at hi
  split_ifs at hi with h
  · simp only [touched, List.mem_singleton] at hi
    exact ⟨A, hA, hi, kA⟩
  · simp only [touched, List.mem_cons, List.not_mem_nil, or_false] at hi
    rcases hi with hi | hi
    · exact ⟨A, hA, hi, kA⟩
    · exact ⟨B, hB, hi, kB⟩

/-- `isApplicable` of both traversals: cells at least as long as the interaction length give overlap 1. -/
theorem overlap_one {cl : V3 Rat} {il : Rat} (hil : 0 < il) (hx : il ≤ cl.x) (hy : il ≤ cl.y) (hz : il ≤ cl.z) :
    overlapOf il cl = ⟨1, 1, 1⟩ := by
  have key : ∀ {l : Rat}, il ≤ l → ⌈il / l⌉ = 1 := by
    intro l hl
    have hl0 : 0 < l := by linarith
    rw [Int.ceil_eq_iff]
    push_cast
    constructor
    · simp only [sub_self]; positivity
    · rw [div_le_one hl0]; exact hl
  simp only [overlapOf, key hx, key hy, key hz]

theorem nodup_getElem_ne {α : Type _} {l : List α} (h : l.Nodup) {n m : Nat} (hn : n < l.length) (hm : m < l.length)
    (hnm : n ≠ m) : l[n] ≠ l[m] := fun e => hnm ((List.Nodup.getElem_inj_iff h).1 e)

/-- Two different packs of one colour touch disjoint cells (overlap 1). -/
theorem c04_pack_disjoint {dims : V3 Nat} {col : Nat} {p p' : Int × Int × Int}
    (hp : p ∈ c04PackPositions (c04End dims) col) (hp' : p' ∈ c04PackPositions (c04End dims) col) (hne : p ≠ p')
    {b b' c : V3 Nat} (hb : b ∈ c04Pack32 (c04End dims) p.1 p.2.1 p.2.2)
    (hb' : b' ∈ c04Pack32 (c04End dims) p'.1 p'.2.1 p'.2.2)
    (hc : (b.x ≤ c.x ∧ c.x ≤ b.x + 1) ∧ (b.y ≤ c.y ∧ c.y ≤ b.y + 1) ∧ (b.z ≤ c.z ∧ c.z ≤ b.z + 1))
    (hc' : (b'.x ≤ c.x ∧ c.x ≤ b'.x + 1) ∧ (b'.y ≤ c.y ∧ c.y ≤ b'.y + 1) ∧ (b'.z ≤ c.z ∧ c.z ≤ b'.z + 1)) : False := by
  obtain ⟨x, y, z⟩ := p
  obtain ⟨x', y', z'⟩ := p'
  rw [mem_c04PackPositions] at hp hp'
  simp only [mem_c04Pack32, mem_c04Offsets32] at hb hb'
  obtain ⟨hx, hy, hz, hpar⟩ := hp
  obtain ⟨hx', hy', hz', hpar'⟩ := hp'
  obtain ⟨⟨ox, oy, oz, o1, o2, o3⟩, -⟩ := hb
  obtain ⟨⟨ox', oy', oz', o1', o2', o3'⟩, -⟩ := hb'
  have ex : ∃ k : Int, x - x' = 4 * k ∧ -1 ≤ k ∧ k ≤ 1 := ⟨(x - x') / 4, by omega, by omega, by omega⟩
  have ey : ∃ k : Int, y - y' = 4 * k ∧ -1 ≤ k ∧ k ≤ 1 := ⟨(y - y') / 4, by omega, by omega, by omega⟩
  have ez : ∃ k : Int, z - z' = 4 * k ∧ -1 ≤ k ∧ k ≤ 1 := ⟨(z - z') / 4, by omega, by omega, by omega⟩
  obtain ⟨k, ek, k1, k2⟩ := ex
  obtain ⟨l, el, l1, l2⟩ := ey
  obtain ⟨m, em, m1, m2⟩ := ez
  have hne' : ¬ (k = 0 ∧ l = 0 ∧ m = 0) := by
    rintro ⟨rfl, rfl, rfl⟩
    apply hne
    simp only [Prod.mk.injEq]
    omega
  rw [← hpar'] at hpar
  clear hx hy hz hx' hy' hz' hpar' hne
  have hsum : (k + l + m) % 2 = 0 := by omega
  clear hpar
  interval_cases k <;> interval_cases l <;> interval_cases m <;> omega

end Verif
