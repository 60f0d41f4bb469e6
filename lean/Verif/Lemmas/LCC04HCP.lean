import Verif.Lemmas.LCC04
namespace Verif
open Spec

theorem hcpStart_vals : hcpStart 0 = ⟨0, 0, 0⟩ ∧ hcpStart 1 = ⟨-4, 0, 1⟩ ∧ hcpStart 2 = ⟨-4, 0, -2⟩ ∧
    hcpStart 3 = ⟨-2, 0, -1⟩ := by decide

theorem mem_hcpPositions {fin : V3 Int} {col : Nat} {x y z : Int} :
    (x, y, z) ∈ hcpPackPositions fin col ↔
      ((hcpStart col).z ≤ z ∧ z < fin.z ∧ (z - (hcpStart col).z) % 4 = 0) ∧ ((hcpStart col).y ≤ y ∧ y < fin.y) ∧
      ∃ x0, ((hcpStart col).x ≤ x0 ∧ x0 < fin.x + 4 ∧ (x0 - (hcpStart col).x) % 6 = 0) ∧
        x = x0 + (if ((z - (hcpStart col).z) % 12) / 4 = 1 then -4 else if ((z - (hcpStart col).z) % 12) / 4 = 2 then -2 else 0) +
          (if (y - (hcpStart col).y) % 2 ≠ 0 then 3 else 0) := by
  unfold hcpPackPositions
  simp only [List.mem_flatMap, List.mem_map, mem_forIntStep (show 0 < 4 by omega), mem_forIntStep (show 0 < 1 by omega),
    mem_forIntStep (show 0 < 6 by omega)]
  have conv : ∀ {a b : Int}, a ≤ b → ((b - a).tmod 12).tdiv 4 = ((b - a) % 12) / 4 := by
    intro a b h
    rw [Int.tmod_eq_emod_of_nonneg (by omega), Int.tdiv_eq_ediv_of_nonneg (by omega)]
  have conv2 : ∀ {a b : Int}, a ≤ b → (b - a).tmod 2 = (b - a) % 2 := by
    intro a b h
    rw [Int.tmod_eq_emod_of_nonneg (by omega)]
  constructor
  · rintro ⟨z', ⟨hz1, hz2, hz3⟩, y', ⟨hy1, hy2, hy3⟩, x', hx, h⟩
    simp only [Prod.mk.injEq] at h
    obtain ⟨h1, rfl, rfl⟩ := h
    rw [conv hz1, conv2 hy1] at h1
    refine ⟨⟨hz1, hz2, by exact_mod_cast hz3⟩, ⟨hy1, hy2⟩, x', by exact_mod_cast hx, ?_⟩
    rw [← h1]
    split_ifs <;> omega
  · rintro ⟨⟨hz1, hz2, hz3⟩, ⟨hy1, hy2⟩, x0, hx, h⟩
    refine ⟨z, ⟨hz1, hz2, by exact_mod_cast hz3⟩, y, ⟨hy1, hy2, by simp⟩, x0, by exact_mod_cast hx, ?_⟩
    simp only [Prod.mk.injEq, and_true]
    rw [conv hz1, conv2 hy1, h]
    split_ifs <;> omega

/-- Positions of one colour form a lattice. -/
theorem hcp_lattice {fin : V3 Int} {col : Nat} (hcol : col < 4) {x y z : Int} (h : (x, y, z) ∈ hcpPackPositions fin col) :
    ∃ m t : Int, z = (hcpStart col).z + 4 * m ∧ x = (hcpStart col).x + 2 * m + 3 * y + 6 * t := by
  rw [mem_hcpPositions] at h
  obtain ⟨hz, hy, x0, hx, he⟩ := h
  have hy0 : (hcpStart col).y = 0 := by
    obtain ⟨p0, p1, p2, p3⟩ := hcpStart_vals
    interval_cases col <;> simp only [p0, p1, p2, p3]
  rw [hy0] at he
  generalize hcpStart col = s at *
  refine ⟨(z - s.z) / 4, (x - (s.x + 2 * ((z - s.z) / 4) + 3 * y)) / 6, by omega, ?_⟩
  split_ifs at he <;> omega

/-- Conversely all lattice points whose pack reaches into the grid are visited. -/
theorem hcp_lattice_mem {fin : V3 Int} {col : Nat} (hcol : col < 4) {x y z : Int} (m t : Int) (hm : 0 ≤ m)
    (hz : z = (hcpStart col).z + 4 * m) (hzf : z < fin.z) (hy : 0 ≤ y ∧ y < fin.y) (hx : -1 ≤ x ∧ x < fin.x)
    (he : x = (hcpStart col).x + 2 * m + 3 * y + 6 * t) : (x, y, z) ∈ hcpPackPositions fin col := by
  rw [mem_hcpPositions]
  have hy0 : (hcpStart col).y = 0 := by
    obtain ⟨p0, p1, p2, p3⟩ := hcpStart_vals
    interval_cases col <;> simp only [p0, p1, p2, p3]
  rw [hy0]
  have hz' : z - (hcpStart col).z = 4 * m := by omega
  rw [hz']
  refine ⟨by omega, hy, x - (if (4 * m % 12) / 4 = 1 then -4 else if (4 * m % 12) / 4 = 2 then -2 else 0) -
          (if (y - 0) % 2 ≠ 0 then 3 else 0), ?_, by ring⟩
  obtain ⟨p0, p1, p2, p3⟩ := hcpStart_vals
  interval_cases col <;> simp only [p0, p1, p2, p3] at * <;> split_ifs <;> omega

theorem mem_hcpPack6 {fin ov : V3 Int} {x y z : Int} {c : V3 Nat} : c ∈ hcpPack6 fin ov x y z ↔
    (0 ≤ (c.x : Int) - x ∧ (c.x : Int) - x ≤ 1) ∧ (c.y : Int) = y ∧ (0 ≤ (c.z : Int) - z ∧ (c.z : Int) - z ≤ 2) ∧
    (c.x : Int) ≤ fin.x - ov.x ∧ (c.y : Int) ≤ fin.y - ov.y ∧ (c.z : Int) ≤ fin.z - ov.z := by
  unfold hcpPack6
  simp only [List.mem_flatMap, mem_forInt]
  constructor
  · rintro ⟨a, ha, b, hb, hc⟩
    split at hc
    · simp only [List.mem_singleton] at hc
      subst hc
      simp only [V3.natOf]
      omega
    · simp at hc
  · rintro ⟨h1, h2, h3, h4, h5, h6⟩
    refine ⟨c.z - z, h3, c.x - x, h1, ?_⟩
    rw [if_pos (by omega)]
    rcases c with ⟨cx, cy, cz⟩
    simp only [List.mem_singleton, V3.natOf, V3.mk.injEq] at *
    omega

theorem nodup_hcpPack6 (fin ov : V3 Int) (x y z : Int) : (hcpPack6 fin ov x y z).Nodup := by
  unfold hcpPack6
  refine nodup_flatMap_key (fun c => (c.z : Int) - z) (nodup_forInt _ _) (fun a _ => ?_) ?_
  · refine nodup_flatMap_key (fun c => (c.x : Int) - x) (nodup_forInt _ _) (fun b _ => ?_) ?_
    · simp only
      split <;> simp
    · intro b _ c hc
      simp only at hc
      split at hc <;> simp at hc
      subst hc
      simp only [V3.natOf]; omega
  · intro a _ c hc
    simp only [List.mem_flatMap] at hc
    obtain ⟨b, _, hc⟩ := hc
    split at hc <;> simp at hc
    subst hc
    simp only [V3.natOf]; omega

theorem nodup_hcpPositions (fin : V3 Int) (col : Nat) : (hcpPackPositions fin col).Nodup := by
  unfold hcpPackPositions
  refine nodup_flatMap_key (fun p => p.2.2) (nodup_forIntStep (by omega)) (fun z _ => ?_) ?_
  · refine nodup_flatMap_key (fun p => p.2.1) (nodup_forIntStep (by omega)) (fun y _ => ?_) ?_
    · refine List.Nodup.map ?_ (nodup_forIntStep (by omega))
      intro a b h
      simp only [Prod.mk.injEq, and_true] at h
      split_ifs at h <;> omega
    · intro y _ p hp
      simp only [List.mem_map] at hp
      obtain ⟨x, _, rfl⟩ := hp
      rfl
  · intro z _ p hp
    simp only [List.mem_flatMap, List.mem_map] at hp
    obtain ⟨y, _, x, _, rfl⟩ := hp
    rfl

theorem hcpPacks_flatten (dims : V3 Nat) (ov : V3 Int) : (hcpPacks dims ov).flatten.flatten =
    ((List.range 4).flatMap fun col => (hcpPackPositions (c04End dims) col).map fun p => (col, p)).flatMap
      fun q => hcpPack6 (c04End dims) ov q.2.1 q.2.2.1 q.2.2.2 := by
  unfold hcpPacks
  rw [← List.flatMap_def, List.flatten_eq_flatMap, List.flatMap_assoc, List.flatMap_assoc]
  congr 1
  funext col
  rw [List.flatMap_map, List.flatMap_map]
  rfl

theorem hcp_tiling (dims : V3 Nat) : (hcpPacks dims ⟨1, 1, 1⟩).flatten.flatten.Nodup ∧
    ∀ c, c ∈ (hcpPacks dims ⟨1, 1, 1⟩).flatten.flatten ↔ c.x < dims.x - 1 ∧ c.y < dims.y - 1 ∧ c.z < dims.z - 1 := by
  rw [hcpPacks_flatten]
  obtain ⟨p0, p1, p2, p3⟩ := hcpStart_vals
  constructor
  · refine nodup_flatMap_inj ?_ (fun _ _ => nodup_hcpPack6 _ _ _ _ _) ?_
    · refine nodup_flatMap_key (fun q => q.1) List.nodup_range (fun col _ => ?_) ?_
      · exact (nodup_hcpPositions _ _).map (fun a b h => by simpa using h)
      · intro col _ q hq
        rw [List.mem_map] at hq
        obtain ⟨p, _, rfl⟩ := hq
        rfl
    · rintro ⟨col, x, y, z⟩ hq ⟨col', x', y', z'⟩ hq' c hc hc'
      simp only [List.mem_flatMap, List.mem_map, List.mem_range, Prod.mk.injEq] at hq hq'
      obtain ⟨a, ha, ⟨x1, y1, z1⟩, hp, rfl, h⟩ := hq
      obtain ⟨a', ha', ⟨x1', y1', z1'⟩, hp', rfl, h'⟩ := hq'
      simp only [Prod.mk.injEq] at h h'
      obtain ⟨rfl, rfl, rfl⟩ := h
      obtain ⟨rfl, rfl, rfl⟩ := h'
      obtain ⟨m, t, e1, e2⟩ := hcp_lattice ha hp
      obtain ⟨m', t', e1', e2'⟩ := hcp_lattice ha' hp'
      simp only [mem_hcpPack6] at hc hc'
      obtain ⟨hx, hy, hz, -⟩ := hc
      obtain ⟨hx', hy', hz', -⟩ := hc'
      clear hp hp'
      have : a = a' ∧ x1 = x1' ∧ y1 = y1' ∧ z1 = z1' := by
        have haa : a = a' := by
          interval_cases a <;> interval_cases a' <;> simp only [p0, p1, p2, p3] at * <;> omega
        subst haa
        generalize hcpStart a = s at *
        have hm : m = m' := by omega
        subst hm
        exact ⟨rfl, by omega, by omega, by omega⟩
      obtain ⟨rfl, rfl, rfl, rfl⟩ := this
      rfl
  · intro c
    simp only [List.mem_flatMap, List.mem_map, List.mem_range]
    constructor
    · rintro ⟨⟨col, x, y, z⟩, -, hc⟩
      rw [mem_hcpPack6] at hc
      simp only [c04End] at hc
      omega
    · intro hc
      suffices h : ∃ col : Nat, col < 4 ∧ ∃ m t dx dz : Int, 0 ≤ m ∧ (0 ≤ dx ∧ dx ≤ 1) ∧ (0 ≤ dz ∧ dz ≤ 2) ∧
          (c.z : Int) - dz = (hcpStart col).z + 4 * m ∧ (c.x : Int) - dx = (hcpStart col).x + 2 * m + 3 * c.y + 6 * t by
        obtain ⟨col, hcol, m, t, dx, dz, hm, hdx, hdz, ez, ex⟩ := h
        refine ⟨(col, c.x - dx, c.y, c.z - dz), ⟨col, hcol, _, ?_, rfl⟩, ?_⟩
        · exact hcp_lattice_mem hcol m t hm ez (by simp only [c04End]; omega) (by simp only [c04End]; omega)
            (by simp only [c04End]; omega) ex
        · rw [mem_hcpPack6]
          simp only [c04End]
          exact ⟨⟨by omega, by omega⟩, trivial, ⟨by omega, by omega⟩, by omega, by omega, by omega⟩
      obtain ⟨q, w, hk, hw0, hw4⟩ : ∃ q w : Int, (c.z : Int) = 4 * q + w ∧ 0 ≤ w ∧ w < 4 := ⟨c.z / 4, c.z % 4, by omega, by omega, by omega⟩
      obtain ⟨u, r, dx, hi, hdx, hr0, hr2⟩ : ∃ u r dx : Int, (c.x : Int) - 3 * c.y - 2 * q = 6 * u + 2 * r + dx ∧
          (0 ≤ dx ∧ dx ≤ 1) ∧ 0 ≤ r ∧ r ≤ 2 :=
        ⟨((c.x : Int) - 3 * c.y - 2 * q) / 6, (((c.x : Int) - 3 * c.y - 2 * q) % 6) / 2, (((c.x : Int) - 3 * c.y - 2 * q) % 6) % 2,
          by omega, by omega, by omega, by omega⟩
      have hq : 0 ≤ q := by omega
      have mk : ∀ col : Nat, col < 4 → ∀ m t dz : Int, 0 ≤ m → (0 ≤ dz ∧ dz ≤ 2) →
          (c.z : Int) - dz = (hcpStart col).z + 4 * m → (c.x : Int) - dx = (hcpStart col).x + 2 * m + 3 * c.y + 6 * t →
          ∃ col : Nat, col < 4 ∧ ∃ m t dx dz : Int, 0 ≤ m ∧ (0 ≤ dx ∧ dx ≤ 1) ∧ (0 ≤ dz ∧ dz ≤ 2) ∧
          (c.z : Int) - dz = (hcpStart col).z + 4 * m ∧ (c.x : Int) - dx = (hcpStart col).x + 2 * m + 3 * c.y + 6 * t :=
        fun col hcol m t dz hm hdz ez ex => ⟨col, hcol, m, t, dx, dz, hm, hdx, hdz, ez, ex⟩
      interval_cases w <;> interval_cases r
      · exact mk 0 (by omega) q u 0 (by omega) (by omega) (by rw [p0]; simp only; omega) (by rw [p0]; simp only; omega)
      · exact mk 2 (by omega) q (u + 1) 2 (by omega) (by omega) (by rw [p2]; simp only; omega) (by rw [p2]; simp only; omega)
      · exact mk 3 (by omega) q (u + 1) 1 (by omega) (by omega) (by rw [p3]; simp only; omega) (by rw [p3]; simp only; omega)
      · exact mk 0 (by omega) q u 1 (by omega) (by omega) (by rw [p0]; simp only; omega) (by rw [p0]; simp only; omega)
      · exact mk 1 (by omega) q (u + 1) 0 (by omega) (by omega) (by rw [p1]; simp only; omega) (by rw [p1]; simp only; omega)
      · exact mk 3 (by omega) q (u + 1) 2 (by omega) (by omega) (by rw [p3]; simp only; omega) (by rw [p3]; simp only; omega)
      · exact mk 0 (by omega) q u 2 (by omega) (by omega) (by rw [p0]; simp only; omega) (by rw [p0]; simp only; omega)
      · exact mk 1 (by omega) q (u + 1) 1 (by omega) (by omega) (by rw [p1]; simp only; omega) (by rw [p1]; simp only; omega)
      · exact mk 2 (by omega) (q + 1) (u + 1) 0 (by omega) (by omega) (by rw [p2]; simp only; omega) (by rw [p2]; simp only; omega)
      · exact mk 3 (by omega) (q + 1) u 0 (by omega) (by omega) (by rw [p3]; simp only; omega) (by rw [p3]; simp only; omega)
      · exact mk 1 (by omega) q (u + 1) 2 (by omega) (by omega) (by rw [p1]; simp only; omega) (by rw [p1]; simp only; omega)
      · exact mk 2 (by omega) (q + 1) (u + 1) 1 (by omega) (by omega) (by rw [p2]; simp only; omega) (by rw [p2]; simp only; omega)

theorem hcp_pack_disjoint {dims : V3 Nat} {ov : V3 Int} {col : Nat} (hcol : col < 4) {p p' : Int × Int × Int}
    (hp : p ∈ hcpPackPositions (c04End dims) col) (hp' : p' ∈ hcpPackPositions (c04End dims) col) (hne : p ≠ p')
    {b b' c : V3 Nat} (hb : b ∈ hcpPack6 (c04End dims) ov p.1 p.2.1 p.2.2)
    (hb' : b' ∈ hcpPack6 (c04End dims) ov p'.1 p'.2.1 p'.2.2)
    (hc : (b.x ≤ c.x ∧ c.x ≤ b.x + 1) ∧ (b.y ≤ c.y ∧ c.y ≤ b.y + 1) ∧ (b.z ≤ c.z ∧ c.z ≤ b.z + 1))
    (hc' : (b'.x ≤ c.x ∧ c.x ≤ b'.x + 1) ∧ (b'.y ≤ c.y ∧ c.y ≤ b'.y + 1) ∧ (b'.z ≤ c.z ∧ c.z ≤ b'.z + 1)) : False := by
  obtain ⟨x, y, z⟩ := p
  obtain ⟨x', y', z'⟩ := p'
  obtain ⟨m, t, e1, e2⟩ := hcp_lattice hcol hp
  obtain ⟨m', t', e1', e2'⟩ := hcp_lattice hcol hp'
  simp only [mem_hcpPack6] at hb hb'
  obtain ⟨hx, hy, hz, -⟩ := hb
  obtain ⟨hx', hy', hz', -⟩ := hb'
  simp only [ne_eq, Prod.mk.injEq] at hne
  clear hp hp'
  generalize hcpStart col = s at *
  omega

end Verif
