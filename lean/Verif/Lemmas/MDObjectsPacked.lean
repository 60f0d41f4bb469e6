import Verif.Lemmas.MDObjects
/-! Lemmas about the closest packing generator of md-flexible. -/
namespace Verif

open Spec.MDObjects

theorem ok_bind_eq {α β : Type} (a : α) (f : α → Outcome β) : (Outcome.ok a).bind f = f a := rfl

/-- Is this row (or layer) even, if row 0 is `start`? -/
def flip (start : Bool) (j : Nat) : Bool := if j % 2 = 0 then start else !start

theorem flip_succ (b : Bool) (j : Nat) : flip b (j + 1) = flip (!b) j := by
  unfold flip
  rcases Nat.mod_two_eq_zero_or_one j with h | h
  · have : (j + 1) % 2 = 1 := by omega
    simp [h, this]
  · have : (j + 1) % 2 = 0 := by omega
    simp [h, this]

/-- The start of a row. -/
noncomputable def rowStart (boxMin : V3 ℝ) (s : ℝ) (even : Bool) : ℝ := if even then boxMin.x else boxMin.x + s * 1 / 2

/-- The start of a layer. -/
noncomputable def layerStart (boxMin : V3 ℝ) (s : ℝ) (even : Bool) : ℝ := if even then boxMin.y else boxMin.y + s * Real.sqrt (1 / 12)

/-- The number of particles in a row. -/
noncomputable def rowCount (boxMin boxMax : V3 ℝ) (s : ℝ) (even : Bool) : Nat := ⌈(boxMax.x - rowStart boxMin s even) / s⌉₊

/-- The number of rows in a layer. -/
noncomputable def layerCount (boxMin boxMax : V3 ℝ) (s : ℝ) (even : Bool) : Nat :=
  ⌈(boxMax.y - layerStart boxMin s even) / (s * Real.sqrt (3 / 4))⌉₊

theorem packedRows_eq {boxMin boxMax : V3 ℝ} {s z : ℝ} (hs : 0 < s) : ∀ (m : Nat) (f : Nat → ℝ) (even : Bool),
    packedRows boxMin boxMax s z even ((List.range m).map f) = .ok ((List.range m).flatMap fun j : Nat =>
      (List.range (rowCount boxMin boxMax s (flip even j))).map fun i : Nat => ⟨rowStart boxMin s (flip even j) + i * s, f j, z⟩) := by
  intro m
  induction m with
  | zero => intro f even; simp [packedRows]
  | succ m ih =>
    intro f even
    rw [List.range_succ_eq_map, List.map_cons, List.map_map, packedRows, upValues_eq hs]
    have h := ih (f ∘ Nat.succ) (!even)
    rw [h]
    simp only [ok_bind_eq, List.flatMap_cons, List.flatMap_map, List.map_map, flip_succ]
    congr 1

theorem packedLayers_eq {boxMin boxMax : V3 ℝ} {s : ℝ} (hs : 0 < s) : ∀ (m : Nat) (f : Nat → ℝ) (even : Bool),
    packedLayers boxMin boxMax s even ((List.range m).map f) = .ok ((List.range m).flatMap fun k : Nat =>
      (List.range (layerCount boxMin boxMax s (flip even k))).flatMap fun j : Nat =>
        (List.range (rowCount boxMin boxMax s (flip (flip even k) j))).map fun i : Nat =>
          ⟨rowStart boxMin s (flip (flip even k) j) + i * s, layerStart boxMin s (flip even k) + j * (s * Real.sqrt (3 / 4)), f k⟩) := by
  have hr : 0 < s * Real.sqrt (3 / 4) := by positivity
  intro m
  induction m with
  | zero => intro f even; simp [packedLayers]
  | succ m ih =>
    intro f even
    rw [List.range_succ_eq_map, List.map_cons, List.map_map, packedLayers, upValues_eq hr]
    have h := ih (f ∘ Nat.succ) (!even)
    rw [h]
    simp only [ok_bind_eq]
    rw [packedRows_eq hs]
    simp only [ok_bind_eq, List.flatMap_cons, List.flatMap_map, flip_succ]
    congr 1

theorem packedPositions_eq {boxMin boxMax : V3 ℝ} {s : ℝ} (hs : 0 < s) :
    packedPositions boxMin boxMax s = .ok ((List.range ⌈(boxMax.z - boxMin.z) / (s * Real.sqrt (2 / 3))⌉₊).flatMap fun k : Nat =>
      (List.range (layerCount boxMin boxMax s (flip true k))).flatMap fun j : Nat =>
        (List.range (rowCount boxMin boxMax s (flip (flip true k) j))).map fun i : Nat =>
          ⟨rowStart boxMin s (flip (flip true k) j) + i * s, layerStart boxMin s (flip true k) + j * (s * Real.sqrt (3 / 4)),
            boxMin.z + k * (s * Real.sqrt (2 / 3))⟩) := by
  have hl : 0 < s * Real.sqrt (2 / 3) := by positivity
  rw [packedPositions, upValues_eq hl, ok_bind_eq, packedLayers_eq hs]

theorem flip_flip (k j : Nat) : flip (flip true k) j = decide ((j + k) % 2 = 0) := by
  unfold flip
  rcases Nat.mod_two_eq_zero_or_one j with hj | hj <;> rcases Nat.mod_two_eq_zero_or_one k with hk | hk
  · have : (j + k) % 2 = 0 := by omega
    simp [hj, hk, this]
  · have : (j + k) % 2 = 1 := by omega
    simp [hj, hk, this]
  · have : (j + k) % 2 = 1 := by omega
    simp [hj, hk, this]
  · have : (j + k) % 2 = 0 := by omega
    simp [hj, hk, this]

/-- The points of the loops are the sites of the packing. -/
theorem packed_point_eq (boxMin : V3 ℝ) (s : ℝ) (i j k : Nat) :
    (⟨rowStart boxMin s (flip (flip true k) j) + i * s, layerStart boxMin s (flip true k) + j * (s * Real.sqrt (3 / 4)),
      boxMin.z + k * (s * Real.sqrt (2 / 3))⟩ : V3 ℝ) = packedSite s boxMin i j k := by
  rw [flip_flip]
  simp only [rowStart, layerStart, packedSite, V3.mk.injEq, flip]
  refine ⟨?_, ?_, by ring⟩
  · rcases Nat.mod_two_eq_zero_or_one (j + k) with h | h <;> simp [h] <;> ring
  · rcases Nat.mod_two_eq_zero_or_one k with h | h <;> simp [h] <;> ring

theorem mem_packedPositions {boxMin len p : V3 ℝ} {s : ℝ} (hs : 0 < s) {ps : List (V3 ℝ)}
    (h : packedPositions boxMin (addV boxMin len) s = .ok ps) : p ∈ ps ↔ PackedPoint s len boxMin p := by
  have hr : 0 < s * Real.sqrt (3 / 4) := by positivity
  have hl : 0 < s * Real.sqrt (2 / 3) := by positivity
  rw [packedPositions_eq hs] at h
  injection h with h
  subst h
  simp only [List.mem_flatMap, List.mem_map, List.mem_range, rowCount, layerCount, lt_ceil_iff hs, lt_ceil_iff hr, lt_ceil_iff hl,
    packed_point_eq, PackedPoint]
  have hx : ∀ i j k : Nat, rowStart boxMin s (flip (flip true k) j) + i * s = (packedSite s boxMin i j k).x := fun i j k =>
    congrArg V3.x (packed_point_eq boxMin s i j k)
  have hy : ∀ i j k : Nat, layerStart boxMin s (flip true k) + j * (s * Real.sqrt (3 / 4)) = (packedSite s boxMin i j k).y := fun i j k =>
    congrArg V3.y (packed_point_eq boxMin s i j k)
  have hz : ∀ i j k : Nat, boxMin.z + k * (s * Real.sqrt (2 / 3)) = (packedSite s boxMin i j k).z := fun i j k =>
    congrArg V3.z (packed_point_eq boxMin s i j k)
  constructor
  · rintro ⟨k, hk, j, hj, i, hi, rfl⟩
    rw [hx] at hi
    rw [hy i] at hj
    rw [hz i j] at hk
    exact ⟨⟨i, j, k, rfl⟩, hi, hj, hk⟩
  · rintro ⟨⟨i, j, k, rfl⟩, hi, hj, hk⟩
    refine ⟨k, ?_, j, ?_, i, ?_, rfl⟩
    · rw [hz i j]; exact hk
    · rw [hy i]; exact hj
    · rw [hx]; exact hi

/-! ### Distances -/

theorem sqrt_twelfth : Real.sqrt (1 / 12) = Real.sqrt (3 / 4) / 3 := by
  rw [show (1 / 12 : ℝ) = (3 / 4) / (3 ^ 2) by norm_num, Real.sqrt_div (by norm_num), Real.sqrt_sq (by norm_num)]

/-- The arithmetic of the packing: `a` is the difference along x in half diameters, `b` that along y in thirds of a row distance, `k` the
number of layers in between. -/
theorem packed_arith {a b k : Int} (hpar : (k % 2 = 0 → b % 3 = 0 ∧ (a + b) % 2 = 0) )
    (hodd : k % 2 = 1 → b % 3 ≠ 0 ∧ (b.natAbs = 1 → a % 2 = 1)) (hne : ¬ (a = 0 ∧ b = 0 ∧ k = 0)) :
    (12 : Int) ≤ 3 * a ^ 2 + b ^ 2 + 8 * k ^ 2 := by
  have ha := sq_nonneg a
  have hb := sq_nonneg b
  have hk := sq_nonneg k
  by_cases hk2 : 2 ≤ |k|
  · have : (4 : Int) ≤ k ^ 2 := by
      have h := sq_abs k
      nlinarith
    omega
  · have hk3 : k = 0 ∨ k = 1 ∨ k = -1 := by
      have := abs_lt.1 (not_le.1 hk2)
      omega
    rcases hk3 with rfl | hk3
    · obtain ⟨hb3, hab⟩ := hpar (by norm_num)
      by_cases hb0 : b = 0
      · subst hb0
        have ha0 : a ≠ 0 := fun h => hne ⟨h, rfl, rfl⟩
        have : (4 : Int) ≤ a ^ 2 := by
          have h2 : 2 ≤ |a| := by
            rcases lt_or_ge a 0 with h | h
            · rw [abs_of_neg h]; omega
            · rw [abs_of_nonneg h]; omega
          have := sq_abs a
          nlinarith
        omega
      · by_cases hb6 : 6 ≤ |b|
        · have : (36 : Int) ≤ b ^ 2 := by
            have := sq_abs b
            nlinarith
          omega
        · have hb33 : b = 3 ∨ b = -3 := by
            rcases lt_or_ge b 0 with h | h
            · rw [abs_of_neg h] at hb6; omega
            · rw [abs_of_nonneg h] at hb6; omega
          have ha1 : (1 : Int) ≤ a ^ 2 := by
            have h0 : a ≠ 0 := by rintro rfl; omega
            have : a ^ 2 ≠ 0 := pow_ne_zero _ h0
            omega
          have : b ^ 2 = 9 := by rcases hb33 with rfl | rfl <;> norm_num
          omega
    · have hk1 : k % 2 = 1 := by omega
      have hkk : k ^ 2 = 1 := by rcases hk3 with rfl | rfl <;> norm_num
      obtain ⟨hb3, hab⟩ := hodd hk1
      by_cases hb1 : b.natAbs = 1
      · have h1 := hab hb1
        have ha1 : (1 : Int) ≤ a ^ 2 := by
          have h0 : a ≠ 0 := by rintro rfl; omega
          have : a ^ 2 ≠ 0 := pow_ne_zero _ h0
          omega
        have hbb : b ^ 2 = 1 := by
          rcases Int.natAbs_eq_iff.1 hb1 with rfl | rfl <;> norm_num
        omega
      · have h2 : 2 ≤ |b| := by
          rcases lt_or_ge b 0 with h | h
          · rw [abs_of_neg h]; omega
          · rw [abs_of_nonneg h]; omega
        have : (4 : Int) ≤ b ^ 2 := by
          have := sq_abs b
          nlinarith
        omega

/-- The coordinates of a site in half diameters and thirds of the row distance. -/
theorem packedSite_coords (s : ℝ) (c : V3 ℝ) (i j k : Nat) : packedSite s c i j k =
    ⟨c.x + s / 2 * ((2 * (i : Int) + ((j : Int) + k) % 2 : Int) : ℝ), c.y + s * Real.sqrt (3 / 4) / 3 * ((3 * (j : Int) + (k : Int) % 2 : Int) : ℝ),
      c.z + s * Real.sqrt (2 / 3) * ((k : Int) : ℝ)⟩ := by
  simp only [packedSite, sqrt_twelfth, V3.mk.injEq]
  refine ⟨?_, ?_, by push_cast; ring⟩
  · rcases Nat.mod_two_eq_zero_or_one (j + k) with h | h
    · have h' : ((j : Int) + k) % 2 = 0 := by omega
      rw [h, h']; push_cast; norm_num; ring
    · have h' : ((j : Int) + k) % 2 = 1 := by omega
      rw [h, h']; push_cast; norm_num; ring
  · rcases Nat.mod_two_eq_zero_or_one k with h | h
    · have h' : (k : Int) % 2 = 0 := by omega
      rw [h, h']; push_cast; norm_num; ring
    · have h' : (k : Int) % 2 = 1 := by omega
      rw [h, h']; push_cast; norm_num; ring

theorem packedSite_distance (s : ℝ) (c : V3 ℝ) {i j k i' j' k' : Nat} (h : ¬ (i = i' ∧ j = j' ∧ k = k')) :
    s ^ 2 ≤ dist2 (packedSite s c i j k) (packedSite s c i' j' k') := by
  rw [packedSite_coords, packedSite_coords]
  have h3 : Real.sqrt (3 / 4) ^ 2 = 3 / 4 := Real.sq_sqrt (by norm_num)
  have h2 : Real.sqrt (2 / 3) ^ 2 = 2 / 3 := Real.sq_sqrt (by norm_num)
  set A : Int := 2 * (i : Int) + ((j : Int) + k) % 2 with hA
  set A' : Int := 2 * (i' : Int) + ((j' : Int) + k') % 2 with hA'
  set B : Int := 3 * (j : Int) + (k : Int) % 2 with hB
  set B' : Int := 3 * (j' : Int) + (k' : Int) % 2 with hB'
  have key : (12 : Int) ≤ 3 * (A - A') ^ 2 + (B - B') ^ 2 + 8 * ((k : Int) - k') ^ 2 := by
    refine packed_arith ?_ ?_ ?_
    · intro hp
      omega
    · intro hp
      refine ⟨by omega, fun hb => ?_⟩
      omega
    · rintro ⟨h1, h2, h3⟩
      exact h ⟨by omega, by omega, by omega⟩
  have key' : (12 : ℝ) ≤ 3 * ((A : ℝ) - A') ^ 2 + ((B : ℝ) - B') ^ 2 + 8 * (((k : Int) : ℝ) - ((k' : Int) : ℝ)) ^ 2 := by
    exact_mod_cast key
  have he : dist2 ⟨c.x + s / 2 * (A : ℝ), c.y + s * Real.sqrt (3 / 4) / 3 * (B : ℝ), c.z + s * Real.sqrt (2 / 3) * ((k : Int) : ℝ)⟩
      ⟨c.x + s / 2 * (A' : ℝ), c.y + s * Real.sqrt (3 / 4) / 3 * (B' : ℝ), c.z + s * Real.sqrt (2 / 3) * ((k' : Int) : ℝ)⟩ =
      s ^ 2 / 12 * (3 * ((A : ℝ) - A') ^ 2 + ((B : ℝ) - B') ^ 2 + 8 * (((k : Int) : ℝ) - ((k' : Int) : ℝ)) ^ 2) := by
    simp only [dist2]
    have e1 : (c.x + s / 2 * (A : ℝ) - (c.x + s / 2 * (A' : ℝ))) ^ 2 = s ^ 2 / 4 * ((A : ℝ) - A') ^ 2 := by ring
    have e2 : (c.y + s * Real.sqrt (3 / 4) / 3 * (B : ℝ) - (c.y + s * Real.sqrt (3 / 4) / 3 * (B' : ℝ))) ^ 2 =
        s ^ 2 * Real.sqrt (3 / 4) ^ 2 / 9 * ((B : ℝ) - B') ^ 2 := by ring
    have e3 : (c.z + s * Real.sqrt (2 / 3) * ((k : Int) : ℝ) - (c.z + s * Real.sqrt (2 / 3) * ((k' : Int) : ℝ))) ^ 2 =
        s ^ 2 * Real.sqrt (2 / 3) ^ 2 * (((k : Int) : ℝ) - ((k' : Int) : ℝ)) ^ 2 := by ring
    rw [e1, e2, e3, h3, h2]
    ring
  rw [he]
  nlinarith [sq_nonneg s]

theorem dist2_self (p : V3 ℝ) : dist2 p p = 0 := by simp [dist2]

/-- Different indices give different sites. -/
theorem packedSite_inj {s : ℝ} (hs : 0 < s) {c : V3 ℝ} {i j k i' j' k' : Nat} (h : packedSite s c i j k = packedSite s c i' j' k') :
    i = i' ∧ j = j' ∧ k = k' := by
  by_contra hne
  have := packedSite_distance s c hne
  rw [h, dist2_self] at this
  nlinarith

theorem packedPositions_distance {boxMin boxMax : V3 ℝ} {s : ℝ} (hs : 0 < s) {ps : List (V3 ℝ)}
    (h : packedPositions boxMin boxMax s = .ok ps) : ps.Pairwise fun p q => s ^ 2 ≤ dist2 p q := by
  rw [packedPositions_eq hs] at h
  injection h with h
  subst h
  simp only [packed_point_eq]
  refine pairwise_of_nodup ?_ ?_
  · refine List.nodup_flatMap.2 ⟨fun k _ => List.nodup_flatMap.2 ⟨fun j _ => ?_, ?_⟩, ?_⟩
    · exact List.Nodup.map (fun a b h => (packedSite_inj hs h).1) List.nodup_range
    · refine List.Nodup.pairwise_of_forall_ne List.nodup_range ?_
      intro a _ b _ hab
      simp only [Function.onFun, List.disjoint_left, List.mem_map, List.mem_range, not_exists, not_and]
      rintro p ⟨x, _, rfl⟩ x' _ h
      exact hab (packedSite_inj hs h).2.1.symm
    · refine List.Nodup.pairwise_of_forall_ne List.nodup_range ?_
      intro a _ b _ hab
      simp only [Function.onFun, List.disjoint_left, List.mem_flatMap, List.mem_map, List.mem_range, not_exists, not_and]
      rintro p ⟨y, _, x, _, rfl⟩ y' _ x' _ h
      exact hab (packedSite_inj hs h).2.2.symm
  · simp only [List.mem_flatMap, List.mem_map, List.mem_range]
    rintro p ⟨k, _, j, _, i, _, rfl⟩ q ⟨k', _, j', _, i', _, rfl⟩ hne
    refine packedSite_distance s boxMin ?_
    rintro ⟨rfl, rfl, rfl⟩
    exact hne rfl

/-! ### Counting -/

theorem sum_alternating (a b : Nat) : ∀ n : Nat, ((List.range n).map fun k : Nat => if k % 2 = 0 then a else b).sum = a * ((n + 1) / 2) + b * (n / 2)
  | 0 => by simp
  | n + 1 => by
    rw [List.range_succ, List.map_append, List.sum_append, sum_alternating a b n]
    rcases Nat.mod_two_eq_zero_or_one n with h | h
    · have e1 : (n + 1 + 1) / 2 = (n + 1) / 2 + 1 := by omega
      have e2 : (n + 1) / 2 = n / 2 := by omega
      simp only [List.map_cons, List.map_nil, List.sum_cons, List.sum_nil, h, if_true]
      rw [e1, e2]; ring
    · have e1 : (n + 1 + 1) / 2 = (n + 1) / 2 := by omega
      have e2 : (n + 1) / 2 = n / 2 + 1 := by omega
      simp only [List.map_cons, List.map_nil, List.sum_cons, List.sum_nil, h]
      rw [e1, e2]; norm_num; ring

theorem ceil_half (t : ℝ) : ⌈t / 2⌉ = (⌈t⌉ + 1) / 2 := by
  have h1 := Int.ceil_lt_add_one t
  have h2 := Int.le_ceil t
  rw [Int.ceil_eq_iff]
  obtain ⟨m, hm⟩ : ∃ m : Int, ⌈t⌉ = 2 * m ∨ ⌈t⌉ = 2 * m + 1 := ⟨⌈t⌉ / 2, by omega⟩
  rcases hm with hm | hm
  · rw [hm] at h1 h2 ⊢
    rw [show (2 * m + 1) / 2 = m by omega]
    push_cast at h1 h2
    constructor <;> linarith
  · rw [hm] at h1 h2 ⊢
    rw [show (2 * m + 1 + 1) / 2 = m + 1 by omega]
    push_cast at h1 h2 ⊢
    constructor <;> linarith

theorem ceil_half_odd (t : ℝ) : ⌈(t - 1) / 2⌉ = ⌈t⌉ / 2 := by
  rw [ceil_half, Int.ceil_sub_one]
  congr 1
  ring

theorem flip_if (b : Bool) (g : Bool → Nat) : (fun j : Nat => g (flip b j)) = fun j : Nat => if j % 2 = 0 then g b else g (!b) := by
  funext j
  unfold flip
  split <;> rfl

theorem layer_length (g : Bool → Nat) (b : Bool) (n : Nat) : ((List.range n).map fun j : Nat => g (flip b j)).sum =
    g b * ((n + 1) / 2) + g (!b) * (n / 2) := by
  rw [flip_if b g]
  exact sum_alternating _ _ _

theorem packedPositions_length {boxMin boxMax : V3 ℝ} {s : ℝ} (hs : 0 < s) {ps : List (V3 ℝ)}
    (h : packedPositions boxMin boxMax s = .ok ps) :
    let nE := rowCount boxMin boxMax s true
    let nO := rowCount boxMin boxMax s false
    let yE := layerCount boxMin boxMax s true
    let yO := layerCount boxMin boxMax s false
    let n := ⌈(boxMax.z - boxMin.z) / (s * Real.sqrt (2 / 3))⌉₊
    ps.length = (nE * ((yE + 1) / 2) + nO * (yE / 2)) * ((n + 1) / 2) + (nO * ((yO + 1) / 2) + nE * (yO / 2)) * (n / 2) := by
  rw [packedPositions_eq hs] at h
  injection h with h
  subst h
  simp only [List.length_flatMap, List.length_map, List.length_range]
  have h1 : (fun k : Nat => ((List.range (layerCount boxMin boxMax s (flip true k))).map fun j : Nat =>
      rowCount boxMin boxMax s (flip (flip true k) j)).sum) =
      fun k : Nat => (fun b : Bool => rowCount boxMin boxMax s b * ((layerCount boxMin boxMax s b + 1) / 2) +
        rowCount boxMin boxMax s (!b) * (layerCount boxMin boxMax s b / 2)) (flip true k) := by
    funext k
    exact layer_length (rowCount boxMin boxMax s) _ _
  rw [h1]
  exact layer_length (fun b : Bool => rowCount boxMin boxMax s b * ((layerCount boxMin boxMax s b + 1) / 2) +
        rowCount boxMin boxMax s (!b) * (layerCount boxMin boxMax s b / 2)) true _

theorem natCeil_cast {t : ℝ} (h : 0 ≤ ⌈t⌉) : ((⌈t⌉₊ : Nat) : Int) = ⌈t⌉ := by
  rw [← Int.ceil_toNat]
  exact Int.toNat_of_nonneg h

theorem packed_total_arith {X yE yO n : Int} (hX : 0 ≤ X) :
    ((X + 1) / 2 * yE - ((if X % 2 = 1 then (1 : Int) else 0) * yE) / 2) * ((n + 1) / 2) +
      ((X + 1) / 2 * yO - ((if X % 2 = 1 then (1 : Int) else 0) * yO + 1) / 2) * (n / 2) =
    ((X + 1) / 2 * ((yE + 1) / 2) + X / 2 * (yE / 2)) * ((n + 1) / 2) +
      (X / 2 * ((yO + 1) / 2) + (X + 1) / 2 * (yO / 2)) * (n / 2) := by
  have e1 : (yE + 1) / 2 = yE - yE / 2 := by omega
  have e2 : (yO + 1) / 2 = yO - yO / 2 := by omega
  split
  · rename_i h
    have e3 : (X + 1) / 2 = X / 2 + 1 := by omega
    rw [e3, one_mul, one_mul, e1, e2]
    ring
  · rename_i h
    have e3 : (X + 1) / 2 = X / 2 := by omega
    rw [e3, zero_mul, zero_mul, e1, e2]
    norm_num
    ring

theorem packedTotal_eq {boxMin len : V3 ℝ} {s : ℝ} (hs : 0 < s) (hx : 0 ≤ len.x) (hy : 0 ≤ len.y) (hz : 0 ≤ len.z)
    (hint : 2 * len.x / s ≤ 2 ^ 31 - 1) {ps : List (V3 ℝ)} (h : packedPositions boxMin (addV boxMin len) s = .ok ps) :
    packedTotal s len = .ok ps.length := by
  have hr : 0 < Real.sqrt (3 / 4) := by positivity
  have hr' : 0 < s * Real.sqrt (3 / 4) := by positivity
  have hl' : 0 < s * Real.sqrt (2 / 3) := by positivity
  set t := len.x / (s * 1 / 2) with ht
  have t0 : 0 ≤ t := by positivity
  have e1 : len.x / s = t / 2 := by rw [ht]; field_simp
  have e2 : (len.x - s * 1 / 2) / s = (t - 1) / 2 := by rw [ht]; field_simp
  have hX : 0 ≤ ⌈t⌉ := Int.ceil_nonneg t0
  have hXlt : ⌈t⌉ < 2 ^ 31 := by
    have : t ≤ ((2 ^ 31 - 1 : Int) : ℝ) := by
      rw [ht]
      push_cast
      have : len.x / (s * 1 / 2) = 2 * len.x / s := by field_simp
      rw [this]; norm_num at hint; exact hint
    have := Int.ceil_le.2 this
    omega
  have hyE : 0 ≤ ⌈len.y / (s * Real.sqrt (3 / 4))⌉ := Int.ceil_nonneg (by positivity)
  have hyO : 0 ≤ ⌈(len.y - s * Real.sqrt (1 / 12)) / (s * Real.sqrt (3 / 4))⌉ := by
    have h1 : (-1 : ℝ) < (len.y - s * Real.sqrt (1 / 12)) / (s * Real.sqrt (3 / 4)) := by
      rw [lt_div_iff₀ hr', sqrt_twelfth]
      nlinarith
    have h2 : (-1 : Int) < ⌈(len.y - s * Real.sqrt (1 / 12)) / (s * Real.sqrt (3 / 4))⌉ := by
      rw [Int.lt_ceil]; push_cast; exact h1
    omega
  have hn : 0 ≤ ⌈len.z / (s * Real.sqrt (2 / 3))⌉ := Int.ceil_nonneg (by positivity)
  have hlen := packedPositions_length hs h
  have c1 : ((rowCount boxMin (addV boxMin len) s true : Nat) : Int) = (⌈t⌉ + 1) / 2 := by
    rw [rowCount, rowStart, if_pos rfl, addV, add_sub_cancel_left, e1, natCeil_cast, ceil_half]
    rw [ceil_half]; omega
  have c2 : ((rowCount boxMin (addV boxMin len) s false : Nat) : Int) = ⌈t⌉ / 2 := by
    have : boxMin.x + len.x - (boxMin.x + s * 1 / 2) = len.x - s * 1 / 2 := by ring
    rw [rowCount, rowStart, if_neg (by simp), addV, this, e2, natCeil_cast, ceil_half_odd]
    rw [ceil_half_odd]; omega
  have c3 : ((layerCount boxMin (addV boxMin len) s true : Nat) : Int) = ⌈len.y / (s * Real.sqrt (3 / 4))⌉ := by
    rw [layerCount, layerStart, if_pos rfl, addV, add_sub_cancel_left, natCeil_cast hyE]
  have c4 : ((layerCount boxMin (addV boxMin len) s false : Nat) : Int) =
      ⌈(len.y - s * Real.sqrt (1 / 12)) / (s * Real.sqrt (3 / 4))⌉ := by
    have : boxMin.y + len.y - (boxMin.y + s * Real.sqrt (1 / 12)) = len.y - s * Real.sqrt (1 / 12) := by ring
    rw [layerCount, layerStart, if_neg (by simp), addV, this, natCeil_cast hyO]
  have c5 : ((⌈((addV boxMin len).z - boxMin.z) / (s * Real.sqrt (2 / 3))⌉₊ : Nat) : Int) = ⌈len.z / (s * Real.sqrt (2 / 3))⌉ := by
    rw [addV, add_sub_cancel_left, natCeil_cast hn]
  unfold packedTotal
  dsimp only
  rw [← ht, e1, ceil_half]
  rw [if_neg (by
    rintro (h | h | h | h | h | h | h)
    · exact hs.ne' h
    all_goals omega)]
  congr 1
  rw [packed_total_arith hX]
  have hcast : (ps.length : Int) = ((⌈t⌉ + 1) / 2 * ((⌈len.y / (s * Real.sqrt (3 / 4))⌉ + 1) / 2) +
      ⌈t⌉ / 2 * (⌈len.y / (s * Real.sqrt (3 / 4))⌉ / 2)) * ((⌈len.z / (s * Real.sqrt (2 / 3))⌉ + 1) / 2) +
      (⌈t⌉ / 2 * ((⌈(len.y - s * Real.sqrt (1 / 12)) / (s * Real.sqrt (3 / 4))⌉ + 1) / 2) +
        (⌈t⌉ + 1) / 2 * (⌈(len.y - s * Real.sqrt (1 / 12)) / (s * Real.sqrt (3 / 4))⌉ / 2)) * (⌈len.z / (s * Real.sqrt (2 / 3))⌉ / 2) := by
    rw [hlen]
    push_cast
    rw [c1, c2, c3, c4, c5]
  rw [← hcast]
  exact Int.toNat_natCast _

end Verif
