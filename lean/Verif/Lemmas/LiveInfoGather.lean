import Verif.Lemmas.LiveInfo
namespace Verif
open Spec

namespace LiveContainer
variable {c : LiveContainer}

theorem visited_filter_inside (c : LiveContainer) : (c.visited.filter fun p => inBoxB p.pos c.boxMin c.boxMax) = c.inside := by
  unfold visited inside
  rw [List.filter_filter]
  congr 1
  funext p
  rw [inBoxB_iff]
  by_cases h : p.own = .dummy <;> simp [h]

theorem countP_inside (c : LiveContainer) (f : Particle → Bool) :
    c.inside.countP f = c.visited.countP fun p => f p && inBoxB p.pos c.boxMin c.boxMax := by
  rw [← visited_filter_inside, List.countP_filter]

theorem numCells_eq (h : c.Ok) : (c.cellsPerDim.x * c.cellsPerDim.y * c.cellsPerDim.z).toNat =
    c.dimsNat.x * c.dimsNat.y * c.dimsNat.z := by
  rw [(cellsPerDim_eq h.cutoff h.x h.y h.z).1]
  simp only
  rw [← Nat.cast_mul, ← Nat.cast_mul, Int.toNat_natCast]

theorem numCells_pos (h : c.Ok) : 0 < c.dimsNat.x * c.dimsNat.y * c.dimsNat.z := by
  obtain ⟨-, a, b, d⟩ := cellsPerDim_eq h.cutoff h.x h.y h.z
  positivity

/-- The counts of the cells of the grid. -/
def cellCounts (c : LiveContainer) (n : Nat) : List Nat :=
  (List.range n).map fun (j : Nat) => c.visited.countP fun p => decide (c.binOf n p = (j : Int))

theorem gather_bins (h : c.Ok) (n : Nat) (hn : n = c.dimsNat.x * c.dimsNat.y * c.dimsNat.z) :
    bumpAll (c.binOf n) c.visited (List.replicate (n + 1) 0) = .ok (c.cellCounts n ++ [c.outside.length]) := by
  rw [bumpAll_replicate]
  · rw [List.range_succ, List.map_append]
    unfold cellCounts
    congr 2
    simp only [List.map_cons, List.map_nil, List.cons.injEq, and_true]
    unfold outside visited
    rw [List.countP_filter, List.countP_eq_length_filter]
    congr 1
    refine List.filter_congr fun p _ => ?_
    by_cases hd : p.own = .dummy
    · simp [hd]
    · by_cases hp : InBox p.pos c.boxMin c.boxMax
      · have := (binOf_spec h.cutoff h.x h.y h.z p hp n).1.2
        rw [← hn] at this
        have ne : ¬ c.binOf n p = n := by omega
        simp [hp, ne]
      · have : c.binOf n p = n := by
          unfold binOf
          rw [if_neg (by rw [inBoxB_iff]; simpa using hp)]
        simp [hd, hp, this]
  · intro p _
    by_cases hp : InBox p.pos c.boxMin c.boxMax
    · have := (binOf_spec h.cutoff h.x h.y h.z p hp n).1
      rw [← hn] at this
      push_cast
      omega
    · have : c.binOf n p = n := by
        unfold binOf
        rw [if_neg (by rw [inBoxB_iff]; simpa using hp)]
      rw [this]
      push_cast
      omega

theorem cellCount_eq (h : c.Ok) (n : Nat) (hn : n = c.dimsNat.x * c.dimsNat.y * c.dimsNat.z) {d : Nat × Nat × Nat}
    (hd : d ∈ gridCells c.dimsNat.x c.dimsNat.y c.dimsNat.z) :
    (c.visited.countP fun p => decide (c.binOf n p = ((gridIdx c.dimsNat.x c.dimsNat.y d : Nat) : Int))) =
      cellCount c.inside c.boxMin ⟨c.cutoff, c.cutoff, c.cutoff⟩ d := by
  unfold cellCount
  rw [countP_inside]
  refine List.countP_congr fun p _ => ?_
  by_cases hp : InBox p.pos c.boxMin c.boxMax
  · have := (binOf_spec h.cutoff h.x h.y h.z p hp n).2 d hd
    simp [inBoxB_iff, hp, this]
  · have e : c.binOf n p = n := by
      unfold binOf
      rw [if_neg (by rw [inBoxB_iff]; simpa using hp)]
    have := gridIdx_lt hd
    rw [← hn] at this
    have ne : ¬ n = gridIdx c.dimsNat.x c.dimsNat.y d := by omega
    simp [inBoxB_iff, hp, e, ne]

theorem mem_cellCounts (h : c.Ok) (n : Nat) (hn : n = c.dimsNat.x * c.dimsNat.y * c.dimsNat.z) (m : Nat) :
    m ∈ c.cellCounts n ↔ ∃ d ∈ gridCells c.dimsNat.x c.dimsNat.y c.dimsNat.z,
      cellCount c.inside c.boxMin ⟨c.cutoff, c.cutoff, c.cutoff⟩ d = m := by
  unfold cellCounts
  rw [List.mem_map]
  constructor
  · rintro ⟨j, hj, rfl⟩
    have hj' := List.mem_range.1 hj
    rw [hn] at hj'
    refine ⟨_, grid_inv_mem hj', ?_⟩
    rw [← cellCount_eq h n hn (grid_inv_mem hj'), gridIdx_of_inv]
  · rintro ⟨d, hd, rfl⟩
    exact ⟨_, List.mem_range.2 (hn ▸ gridIdx_lt hd), cellCount_eq h n hn hd⟩

theorem sum_cellCounts (h : c.Ok) (n : Nat) (hn : n = c.dimsNat.x * c.dimsNat.y * c.dimsNat.z) {M : Type} [AddCommMonoid M] (g : Nat → M) :
    ((c.cellCounts n).map g).sum = ∑ d ∈ gridCells c.dimsNat.x c.dimsNat.y c.dimsNat.z,
      g (cellCount c.inside c.boxMin ⟨c.cutoff, c.cutoff, c.cutoff⟩ d) := by
  have e : (c.cellCounts n).map g = (List.range n).map fun (j : Nat) => g (c.visited.countP fun p => decide (c.binOf n p = (j : Int))) := by
    simp [cellCounts, Function.comp_def]
  rw [e, sum_map_range]
  conv_lhs => rw [hn]
  rw [sum_range_grid]
  exact Finset.sum_congr rfl fun d hd => by rw [← hn, cellCount_eq h n hn hd]

theorem countP_cellCounts (h : c.Ok) (n : Nat) (hn : n = c.dimsNat.x * c.dimsNat.y * c.dimsNat.z) (q : Nat → Bool) :
    (c.cellCounts n).countP q = ((gridCells c.dimsNat.x c.dimsNat.y c.dimsNat.z).filter fun d =>
      q (cellCount c.inside c.boxMin ⟨c.cutoff, c.cutoff, c.cutoff⟩ d) = true).card := by
  have e : ∀ l : List Nat, l.countP q = (l.map fun a => if q a = true then 1 else 0).sum := by
    intro l
    induction l with
    | nil => rfl
    | cons a l ih => rw [List.countP_cons, List.map_cons, List.sum_cons, ih]; omega
  rw [e, sum_cellCounts h n hn, Finset.card_filter]

/-- The counts of the blurred cells. -/
def blurredCounts (c : LiveContainer) : List Nat :=
  (List.range 27).map fun (j : Nat) => c.inside.countP fun p => decide (c.blurredBinOf p = (j : Int))

theorem gather_blurred (h : c.Ok) :
    bumpAll c.blurredBinOf (c.visited.filter fun p => inBoxB p.pos c.boxMin c.boxMax) (List.replicate 27 0) = .ok c.blurredCounts := by
  rw [visited_filter_inside, bumpAll_replicate]
  · rfl
  · intro p hp
    have hp' : InBox p.pos c.boxMin c.boxMax := by
      have := (List.mem_filter.1 hp).2
      simp only [decide_eq_true_eq] at this
      exact this.2
    simpa using (blurredBinOf_spec h.x h.y h.z p hp').1

theorem sum_blurredCounts (h : c.Ok) {M : Type} [AddCommMonoid M] (g : Nat → M) :
    (c.blurredCounts.map g).sum = ∑ d ∈ gridCells 3 3 3,
      g (cellCount c.inside c.boxMin ⟨c.domainSize.x / 3, c.domainSize.y / 3, c.domainSize.z / 3⟩ d) := by
  have e : c.blurredCounts.map g = (List.range 27).map fun (j : Nat) => g (c.inside.countP fun p => decide (c.blurredBinOf p = (j : Int))) := by
    simp [blurredCounts, Function.comp_def]
  rw [e, sum_map_range, show (27 : Nat) = 3 * 3 * 3 from rfl, sum_range_grid]
  refine Finset.sum_congr rfl fun d hd => ?_
  congr 1
  unfold cellCount
  refine List.countP_congr fun p hp => ?_
  have hp' : InBox p.pos c.boxMin c.boxMax := by
    have := (List.mem_filter.1 hp).2
    simp only [decide_eq_true_eq] at this
    exact this.2
  have := (blurredBinOf_spec h.x h.y h.z p hp').2 d hd
  simp only [decide_eq_true_eq]
  exact_mod_cast this

/-! ### Homogeneity -/

theorem cubeRootFloor_spec (m : Nat) : cubeRootFloor m ^ 3 ≤ m ∧ m < (cubeRootFloor m + 1) ^ 3 := by
  unfold cubeRootFloor
  constructor
  · exact Nat.findGreatest_spec (P := fun k => k ^ 3 ≤ m) (m := 0) (Nat.zero_le _) (by simp)
  · by_contra hlt
    have hle : (Nat.findGreatest (fun k => k ^ 3 ≤ m) m + 1) ^ 3 ≤ m := by omega
    have hb : Nat.findGreatest (fun k => k ^ 3 ≤ m) m + 1 ≤ m := le_trans (Nat.le_self_pow (by norm_num) _) hle
    have := Nat.le_findGreatest (P := fun k => k ^ 3 ≤ m) hb hle
    omega

theorem binsPerDim_pos {n : Nat} (hn : 0 < n) : 0 < homogeneityBinsPerDim n := by
  unfold homogeneityBinsPerDim
  have h1 : 0 < ⌈(n : Rat) / 10⌉.toNat := by
    have : 0 < ⌈(n : Rat) / 10⌉ := Int.ceil_pos.2 (by positivity)
    omega
  have := (cubeRootFloor_spec ⌈(n : Rat) / 10⌉.toNat).2
  by_contra h0
  have h0' : cubeRootFloor ⌈(n : Rat) / 10⌉.toNat = 0 := by omega
  rw [h0'] at this
  omega

/-- The bin of a particle, without the outcome. -/
def hBin (c : LiveContainer) (k : Nat) (p : Particle) : Int :=
  let f := fun (lo hi r : Rat) => max 0 (min ⌊(r - lo) / ((hi - lo) / k)⌋ ((k : Int) - 1))
  threeToOneDInt (f c.boxMin.x c.boxMax.x p.pos.x) (f c.boxMin.y c.boxMax.y p.pos.y) (f c.boxMin.z c.boxMax.z p.pos.z) ⟨k, k, k⟩

theorem homogeneityIndex1_ok {lo hi : Rat} (h : lo < hi) (r : Rat) (k : Nat) :
    homogeneityIndex1 lo hi r k = .ok (max 0 (min ⌊(r - lo) / ((hi - lo) / k)⌋ ((k : Int) - 1))) := by
  unfold homogeneityIndex1
  rw [if_pos]
  rcases lt_or_ge lo r with h1 | h1
  · exact .inl h1
  · exact .inr (lt_of_le_of_lt h1 h)

theorem homogeneityBin_ok (h : c.Ok) (k : Nat) (p : Particle) : c.homogeneityBin k p = .ok (c.hBin k p) := by
  unfold homogeneityBin hBin
  rw [homogeneityIndex1_ok h.x, homogeneityIndex1_ok h.y, homogeneityIndex1_ok h.z]
  rfl

theorem homogeneityBins_eq (h : c.Ok) (k : Nat) (ps : List Particle) (bins : List Nat) :
    c.homogeneityBins k ps bins = bumpAll (c.hBin k) ps bins := by
  induction ps generalizing bins with
  | nil => rfl
  | cons p ps ih =>
    unfold homogeneityBins bumpAll
    rw [homogeneityBin_ok h]
    show (bumpBin bins (c.hBin k p)).bind _ = _
    congr 1
    funext b
    exact ih b

theorem clamp_range (k : Nat) (hk : 0 < k) (f : Int) : 0 ≤ max 0 (min f ((k : Int) - 1)) ∧ max 0 (min f ((k : Int) - 1)) < k := by omega

theorem hBin_range (k : Nat) (hk : 0 < k) (p : Particle) : 0 ≤ c.hBin k p ∧ c.hBin k p < ((k * k * k : Nat) : Int) := by
  have hx := clamp_range k hk ⌊(p.pos.x - c.boxMin.x) / ((c.boxMax.x - c.boxMin.x) / k)⌋
  have hy := clamp_range k hk ⌊(p.pos.y - c.boxMin.y) / ((c.boxMax.y - c.boxMin.y) / k)⌋
  have hz := clamp_range k hk ⌊(p.pos.z - c.boxMin.z) / ((c.boxMax.z - c.boxMin.z) / k)⌋
  unfold hBin threeToOneDInt
  simp only
  generalize max 0 (min ⌊(p.pos.x - c.boxMin.x) / ((c.boxMax.x - c.boxMin.x) / k)⌋ ((k : Int) - 1)) = x at *
  generalize max 0 (min ⌊(p.pos.y - c.boxMin.y) / ((c.boxMax.y - c.boxMin.y) / k)⌋ ((k : Int) - 1)) = y at *
  generalize max 0 (min ⌊(p.pos.z - c.boxMin.z) / ((c.boxMax.z - c.boxMin.z) / k)⌋ ((k : Int) - 1)) = z at *
  obtain ⟨x, rfl⟩ := Int.eq_ofNat_of_zero_le hx.1
  obtain ⟨y, rfl⟩ := Int.eq_ofNat_of_zero_le hy.1
  obtain ⟨z, rfl⟩ := Int.eq_ofNat_of_zero_le hz.1
  have mem : (x, y, z) ∈ gridCells k k k := by
    simp only [gridCells, Finset.mem_product, Finset.mem_range]
    exact ⟨by exact_mod_cast hx.2, by exact_mod_cast hy.2, by exact_mod_cast hz.2⟩
  have := gridIdx_lt mem
  have e : ((z : Int) * k + y) * k + x = ((gridIdx k k (x, y, z) : Nat) : Int) := by simp [gridIdx]
  rw [e]
  exact ⟨by positivity, by exact_mod_cast this⟩

theorem hBin_spec (h : c.Ok) (k : Nat) (hk : 0 < k) (p : Particle) (hp : InBox p.pos c.boxMin c.boxMax) :
    ∀ d ∈ gridCells k k k, (c.hBin k p = (gridIdx k k d : Nat) ↔
      InGridCell c.boxMin ⟨c.domainSize.x / k, c.domainSize.y / k, c.domainSize.z / k⟩ d p.pos) := by
  obtain ⟨⟨x1, x2⟩, ⟨y1, y2⟩, z1, z2⟩ := hp
  have rx := blurred_floor_range h.x x1 x2 k hk
  have ry := blurred_floor_range h.y y1 y2 k hk
  have rz := blurred_floor_range h.z z1 z2 k hk
  have kp : (0 : Rat) < k := by exact_mod_cast hk
  have w : ∀ {a b : Rat}, a < b → 0 < (b - a) / k := fun h => div_pos (by linarith) kp
  have main := grid_index_iff (lo := c.boxMin) (w := ⟨c.domainSize.x / k, c.domainSize.y / k, c.domainSize.z / k⟩)
    (r := p.pos) (fun i => floor_div_eq_iff (w h.x) i) (fun i => floor_div_eq_iff (w h.y) i) (fun i => floor_div_eq_iff (w h.z) i) rx ry rz
  have clamp : ∀ f : Int, 0 ≤ f ∧ f < k → max 0 (min f ((k : Int) - 1)) = f := fun f hf => by omega
  have eb : c.hBin k p = (⌊(p.pos.z - c.boxMin.z) / ((c.boxMax.z - c.boxMin.z) / k)⌋ * k +
      ⌊(p.pos.y - c.boxMin.y) / ((c.boxMax.y - c.boxMin.y) / k)⌋) * k + ⌊(p.pos.x - c.boxMin.x) / ((c.boxMax.x - c.boxMin.x) / k)⌋ := by
    unfold hBin threeToOneDInt
    simp only [clamp _ rx, clamp _ ry, clamp _ rz]
  rw [eb]
  exact main.2

/-- The counts of the bins of `calculateHomogeneityAndMaxDensity`. -/
def hCounts (c : LiveContainer) (k : Nat) : List Nat :=
  (List.range (k * k * k)).map fun (j : Nat) => c.owned.countP fun p => decide (c.hBin k p = (j : Int))

theorem homogeneityBins_ok (h : c.Ok) (k : Nat) (hk : c.owned = [] ∨ 0 < k) :
    c.homogeneityBins k c.owned (List.replicate (k * k * k) 0) = .ok (c.hCounts k) := by
  rw [homogeneityBins_eq h, bumpAll_replicate]
  · rfl
  · intro p hp
    rcases hk with hk | hk
    · rw [hk] at hp; simp at hp
    · exact hBin_range k hk p

theorem numOwned_eq (c : LiveContainer) : c.numOwned = c.owned.length := rfl

theorem homogeneity_eq (h : c.Ok) : c.homogeneityAndMaxDensity =
    (let k := homogeneityBinsPerDim c.numOwned
     let volume := c.domainSize.x * c.domainSize.y * c.domainSize.z
     let density := (c.hCounts k).map fun (m : Nat) => (m : Rat) / (volume / ((k * k * k : Nat) : Rat))
     let mean := (c.numOwned : Rat) / volume
     .ok (if c.numOwned = 0 then 0 else
        Real.sqrt (((density.foldl (fun s d => s + (d - mean) * (d - mean)) 0) / ((k * k * k : Nat) : Rat) : Rat) : ℝ),
      density.foldl (fun a d => max a d) 0)) := by
  have hk : c.owned = [] ∨ 0 < homogeneityBinsPerDim c.numOwned := by
    rcases Nat.eq_zero_or_pos c.numOwned with h0 | h0
    · exact .inl (List.eq_nil_of_length_eq_zero h0)
    · exact .inr (binsPerDim_pos h0)
  have := homogeneityBins_ok h (homogeneityBinsPerDim c.numOwned) hk
  unfold homogeneityAndMaxDensity
  simp only
  unfold owned at this
  rw [this]
  rfl

theorem sum_hCounts (h : c.Ok) (k : Nat) (hk : 0 < k) (hin : ∀ p ∈ c.owned, InBox p.pos c.boxMin c.boxMax)
    {M : Type} [AddCommMonoid M] (g : Nat → M) : ((c.hCounts k).map g).sum = ∑ d ∈ gridCells k k k,
      g (cellCount c.owned c.boxMin ⟨c.domainSize.x / k, c.domainSize.y / k, c.domainSize.z / k⟩ d) := by
  have e : (c.hCounts k).map g = (List.range (k * k * k)).map fun (j : Nat) => g (c.owned.countP fun p => decide (c.hBin k p = (j : Int))) := by
    simp [hCounts, Function.comp_def]
  rw [e, sum_map_range, sum_range_grid]
  refine Finset.sum_congr rfl fun d hd => ?_
  congr 1
  unfold cellCount
  refine List.countP_congr fun p hp => ?_
  have := hBin_spec h k hk p (hin p hp) d hd
  simp only [decide_eq_true_eq]
  exact this

theorem mem_hCounts (h : c.Ok) (k : Nat) (hk : 0 < k) (hin : ∀ p ∈ c.owned, InBox p.pos c.boxMin c.boxMax) (m : Nat) :
    m ∈ c.hCounts k ↔ ∃ d ∈ gridCells k k k,
      cellCount c.owned c.boxMin ⟨c.domainSize.x / k, c.domainSize.y / k, c.domainSize.z / k⟩ d = m := by
  have e : ∀ d ∈ gridCells k k k, (c.owned.countP fun p => decide (c.hBin k p = ((gridIdx k k d : Nat) : Int))) =
      cellCount c.owned c.boxMin ⟨c.domainSize.x / k, c.domainSize.y / k, c.domainSize.z / k⟩ d := by
    intro d hd
    unfold cellCount
    refine List.countP_congr fun p hp => ?_
    have := hBin_spec h k hk p (hin p hp) d hd
    simp only [decide_eq_true_eq]
    exact this
  unfold hCounts
  rw [List.mem_map]
  constructor
  · rintro ⟨j, hj, rfl⟩
    have hj' := List.mem_range.1 hj
    exact ⟨_, grid_inv_mem hj', by rw [← e _ (grid_inv_mem hj'), gridIdx_of_inv]⟩
  · rintro ⟨d, hd, rfl⟩
    exact ⟨_, List.mem_range.2 (gridIdx_lt hd), e d hd⟩

/-- The counts of all cells add up to the number of particles, if each of them lies in exactly one cell. -/
theorem sum_countP (ps : List Particle) (f : Particle → Int) (n : Nat) (hf : ∀ p ∈ ps, 0 ≤ f p ∧ f p < n) :
    ((List.range n).map fun (j : Nat) => ps.countP fun p => decide (f p = (j : Int))).sum = ps.length := by
  rw [sum_map_range]
  induction ps with
  | nil => simp
  | cons p ps ih =>
    have e : ∀ j : Nat, ((p :: ps).countP fun q => decide (f q = (j : Int))) =
        (ps.countP fun q => decide (f q = (j : Int))) + if f p = (j : Int) then 1 else 0 := by
      intro j; rw [List.countP_cons]; simp
    simp only [e]
    rw [Finset.sum_add_distrib, ih fun q hq => hf q (List.mem_cons_of_mem _ hq), List.length_cons]
    have hp := hf p List.mem_cons_self
    have e2 : (∑ j ∈ Finset.range n, if f p = (j : Int) then 1 else 0) = ∑ j ∈ Finset.range n, if j = (f p).toNat then 1 else 0 :=
      Finset.sum_congr rfl fun j _ => by
        have : f p = (j : Int) ↔ j = (f p).toNat := by omega
        simp [this]
    rw [e2, Finset.sum_ite_eq' , if_pos (Finset.mem_range.2 (by omega))]

end LiveContainer
end Verif
