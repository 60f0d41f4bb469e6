import Verif.Lemmas.LiveInfoGather
/-!
C112: what the tuning strategies are told about the particles (`LiveInfo`, homogeneity and maximum density).
-/
namespace Verif
open Spec

/-- The box divided into cells of side length cutoff: the numbers of cells per dimension are the smallest that cover the box. -/
theorem C112_grid (c : LiveContainer) (h : c.Ok) :
    (((c.dimsNat.x : Rat) - 1) * c.cutoff < c.boxMax.x - c.boxMin.x ∧ c.boxMax.x - c.boxMin.x ≤ c.dimsNat.x * c.cutoff) ∧
    (((c.dimsNat.y : Rat) - 1) * c.cutoff < c.boxMax.y - c.boxMin.y ∧ c.boxMax.y - c.boxMin.y ≤ c.dimsNat.y * c.cutoff) ∧
    (((c.dimsNat.z : Rat) - 1) * c.cutoff < c.boxMax.z - c.boxMin.z ∧ c.boxMax.z - c.boxMin.z ≤ c.dimsNat.z * c.cutoff) := by
  have key : ∀ a : Rat, 0 < a → (((⌈a * (1 / c.cutoff)⌉.toNat : Nat) : Rat) - 1) * c.cutoff < a ∧
      a ≤ ((⌈a * (1 / c.cutoff)⌉.toNat : Nat) : Rat) * c.cutoff := by
    intro a ha
    have hp : 0 < a * (1 / c.cutoff) := mul_pos ha (one_div_pos.2 h.cutoff)
    have e : ((⌈a * (1 / c.cutoff)⌉.toNat : Nat) : Rat) = ((⌈a * (1 / c.cutoff)⌉ : Int) : Rat) := by
      exact_mod_cast congrArg (Int.cast : Int → Rat) (ceil_toNat_cast hp).1
    rw [e]
    have e2 : a = a * (1 / c.cutoff) * c.cutoff := by field_simp [h.cutoff.ne']
    constructor
    · have := Int.ceil_lt_add_one (a * (1 / c.cutoff))
      calc _ < a * (1 / c.cutoff) * c.cutoff := mul_lt_mul_of_pos_right (by linarith) h.cutoff
        _ = a := e2.symm
    · have := Int.le_ceil (a * (1 / c.cutoff))
      calc a = a * (1 / c.cutoff) * c.cutoff := e2
        _ ≤ _ := mul_le_mul_of_nonneg_right this h.cutoff.le
  exact ⟨key _ (sub_pos.2 h.x), key _ (sub_pos.2 h.y), key _ (sub_pos.2 h.z)⟩

/-- The exact content of what is gathered, for every container. -/
private theorem gather_eq (c : LiveContainer) (h : c.Ok) (small : c.dimsNat.x * c.dimsNat.y * c.dimsNat.z < 2 ^ 31) :
    ∃ hom : ℝ × Rat, c.homogeneityAndMaxDensity = .ok hom ∧ c.gather = .ok
      ⟨c.owned.length, c.outside.length, c.dimsNat.x * c.dimsNat.y * c.dimsNat.z,
        (c.cellCounts (c.dimsNat.x * c.dimsNat.y * c.dimsNat.z)).countP fun n => decide (n = 0),
        (c.cellCounts (c.dimsNat.x * c.dimsNat.y * c.dimsNat.z)).foldl (fun a n => max n a) 0,
        (c.cellCounts (c.dimsNat.x * c.dimsNat.y * c.dimsNat.z)).foldl (fun a n => min n a) (2 ^ 64 - 1),
        liveAverage c.owned.length c.outside.length (c.dimsNat.x * c.dimsNat.y * c.dimsNat.z),
        liveEstimate (c.cellCounts (c.dimsNat.x * c.dimsNat.y * c.dimsNat.z)),
        liveStdDev c.owned.length (liveAverage c.owned.length c.outside.length (c.dimsNat.x * c.dimsNat.y * c.dimsNat.z))
          (c.cellCounts (c.dimsNat.x * c.dimsNat.y * c.dimsNat.z)),
        liveStdDev c.owned.length (liveAverage c.owned.length c.outside.length 27) c.blurredCounts, hom.1, hom.2⟩ := by
  refine ⟨_, LiveContainer.homogeneity_eq h, ?_⟩
  obtain ⟨e, hx, hy, hz⟩ := cellsPerDim_eq h.cutoff h.x h.y h.z
  have hn := LiveContainer.numCells_eq h
  unfold LiveContainer.gather
  simp only
  rw [if_neg]
  · rw [hn, LiveContainer.gather_bins h _ rfl]
    show Outcome.bind _ _ = _
    rw [LiveContainer.gather_blurred h]
    show Outcome.bind _ _ = _
    rw [LiveContainer.homogeneity_eq h]
    have hl : (c.cellCounts (c.dimsNat.x * c.dimsNat.y * c.dimsNat.z)).length = c.dimsNat.x * c.dimsNat.y * c.dimsNat.z := by
      simp [LiveContainer.cellCounts]
    have e1 : (c.cellCounts (c.dimsNat.x * c.dimsNat.y * c.dimsNat.z) ++ [c.outside.length]).getD
        (c.dimsNat.x * c.dimsNat.y * c.dimsNat.z) 0 = c.outside.length := by
      rw [List.getD_append_right _ _ _ _ hl.le, hl]; simp
    have e3 : c.blurredCounts.length = 27 := by simp [LiveContainer.blurredCounts]
    simp only [Outcome.bind, e1, List.dropLast_concat, e3, LiveContainer.numOwned_eq]
  · rw [e]
    simp only
    push Not
    have h1 : c.dimsNat.x * c.dimsNat.y ≤ c.dimsNat.x * c.dimsNat.y * c.dimsNat.z := Nat.le_mul_of_pos_right _ hz
    constructor
    · have : c.dimsNat.x * c.dimsNat.y < 2 ^ 31 := by omega
      exact_mod_cast this
    · exact_mod_cast small

/-- **C112, counting.** For every container with at most 2^31 - 1 cells, `gather` succeeds. The number of particles is that of the owned
particles, the number of halo particles that of the particles outside of the box. With the box divided into cells of side length cutoff,
the numbers of cells and of empty cells and the largest and smallest number of particles in a cell are the true ones; the estimated number
of interactions is the stated function of the numbers of particles in the cells. -/
theorem C112_counts (c : LiveContainer) (h : c.Ok) (small : c.dimsNat.x * c.dimsNat.y * c.dimsNat.z < 2 ^ 31)
    (len : c.particles.length < 2 ^ 64) :
    ∃ info, c.gather = .ok info ∧
      let cells := gridCells c.dimsNat.x c.dimsNat.y c.dimsNat.z
      let count := cellCount c.inside c.boxMin ⟨c.cutoff, c.cutoff, c.cutoff⟩
      info.numParticles = c.owned.length ∧
      info.numHaloParticles = c.outside.length ∧
      info.numCells = cells.card ∧
      info.numEmptyCells = (cells.filter fun d => count d = 0).card ∧
      ((∀ d ∈ cells, count d ≤ info.maxParticlesPerCell) ∧ ∃ d ∈ cells, count d = info.maxParticlesPerCell) ∧
      ((∀ d ∈ cells, info.minParticlesPerCell ≤ count d) ∧ ∃ d ∈ cells, count d = info.minParticlesPerCell) ∧
      info.estimatedNumNeighborInteractions =
        ⌊(155 / 1000 : Rat) / 2 * ∑ d ∈ cells, ((count d : Rat) * (27 * count d - 1))⌋.toNat := by
  obtain ⟨hom, -, hg⟩ := gather_eq c h small
  refine ⟨_, hg, rfl, rfl, (gridCells_card _ _ _).symm, ?_, ⟨?_, ?_⟩, ⟨?_, ?_⟩, ?_⟩
  · have := LiveContainer.countP_cellCounts h _ rfl fun n => decide (n = 0)
    simpa using this
  · intro d hd
    exact (foldl_max_spec _ 0).1 _ ((LiveContainer.mem_cellCounts h _ rfl _).2 ⟨d, hd, rfl⟩)
  · rcases (foldl_max_spec (c.cellCounts (c.dimsNat.x * c.dimsNat.y * c.dimsNat.z)) 0).2.2 with h0 | h0
    · have hp := LiveContainer.numCells_pos h
      refine ⟨_, grid_inv_mem hp, ?_⟩
      have := (foldl_max_spec _ 0).1 _ ((LiveContainer.mem_cellCounts h _ rfl _).2 ⟨_, grid_inv_mem hp, rfl⟩)
      show _ = List.foldl _ _ _
      omega
    · exact (LiveContainer.mem_cellCounts h _ rfl _).1 h0
  · intro d hd
    exact (foldl_min_spec _ _).1 _ ((LiveContainer.mem_cellCounts h _ rfl _).2 ⟨d, hd, rfl⟩)
  · rcases (foldl_min_spec (c.cellCounts (c.dimsNat.x * c.dimsNat.y * c.dimsNat.z)) (2 ^ 64 - 1)).2.2 with h0 | h0
    · have hp := LiveContainer.numCells_pos h
      refine ⟨_, grid_inv_mem hp, ?_⟩
      have := (foldl_min_spec _ (2 ^ 64 - 1)).1 _ ((LiveContainer.mem_cellCounts h _ rfl _).2 ⟨_, grid_inv_mem hp, rfl⟩)
      have le : cellCount c.inside c.boxMin ⟨c.cutoff, c.cutoff, c.cutoff⟩
          (0 % c.dimsNat.x, 0 / c.dimsNat.x % c.dimsNat.y, 0 / c.dimsNat.x / c.dimsNat.y) ≤ c.particles.length :=
        le_trans List.countP_le_length (List.length_filter_le _ _)
      show _ = List.foldl _ _ _
      omega
    · exact (LiveContainer.mem_cellCounts h _ rfl _).1 h0
  · show liveEstimate _ = _
    rw [liveEstimate_eq, LiveContainer.sum_cellCounts h _ rfl fun n => ((n : Rat) * (27 * n - 1))]

/-! ### Averages and standard deviations -/

private theorem sum_count_inside (c : LiveContainer) (h : c.Ok) :
    ∑ d ∈ gridCells c.dimsNat.x c.dimsNat.y c.dimsNat.z, cellCount c.inside c.boxMin ⟨c.cutoff, c.cutoff, c.cutoff⟩ d = c.inside.length := by
  have h1 := LiveContainer.sum_cellCounts h _ rfl (fun n : Nat => n)
  rw [List.map_id'] at h1
  rw [← h1]
  have hf : ∀ p ∈ c.visited, 0 ≤ c.binOf (c.dimsNat.x * c.dimsNat.y * c.dimsNat.z) p ∧
      c.binOf (c.dimsNat.x * c.dimsNat.y * c.dimsNat.z) p < ((c.dimsNat.x * c.dimsNat.y * c.dimsNat.z + 1 : Nat) : Int) := by
    intro p _
    by_cases hp : InBox p.pos c.boxMin c.boxMax
    · have := (binOf_spec h.cutoff h.x h.y h.z p hp (c.dimsNat.x * c.dimsNat.y * c.dimsNat.z)).1
      rw [Nat.cast_succ]; omega
    · have : c.binOf (c.dimsNat.x * c.dimsNat.y * c.dimsNat.z) p = ((c.dimsNat.x * c.dimsNat.y * c.dimsNat.z : Nat) : Int) := by
        unfold LiveContainer.binOf
        rw [if_neg (by rw [inBoxB_iff]; simpa using hp)]
      rw [this, Nat.cast_succ]; omega
  have h2 := LiveContainer.sum_countP c.visited (c.binOf (c.dimsNat.x * c.dimsNat.y * c.dimsNat.z)) _ hf
  have h3 := LiveContainer.gather_bins h _ rfl
  rw [bumpAll_replicate _ _ _ hf] at h3
  have h4 := Outcome.ok.inj h3
  rw [h4, List.sum_append] at h2
  have h5 : c.inside.length + c.outside.length = c.visited.length := by
    unfold LiveContainer.inside LiveContainer.outside LiveContainer.visited
    induction c.particles with
    | nil => rfl
    | cons p l ih =>
      simp only [List.filter_cons]
      by_cases h1 : p.own = .dummy <;> by_cases h2 : InBox p.pos c.boxMin c.boxMax <;> simp [h1, h2] <;> simp at ih <;> omega
  simp at h2
  omega

private theorem sum_count_blurred (c : LiveContainer) (h : c.Ok) :
    ∑ d ∈ gridCells 3 3 3, cellCount c.inside c.boxMin ⟨c.domainSize.x / 3, c.domainSize.y / 3, c.domainSize.z / 3⟩ d = c.inside.length := by
  have h1 := LiveContainer.sum_blurredCounts h (fun n : Nat => n)
  rw [List.map_id'] at h1
  rw [← h1]
  refine LiveContainer.sum_countP c.inside c.blurredBinOf 27 fun p hp => ?_
  have hp' : InBox p.pos c.boxMin c.boxMax := by
    have := (List.mem_filter.1 hp).2
    simp only [decide_eq_true_eq] at this
    exact this.2
  simpa using (blurredBinOf_spec h.x h.y h.z p hp').1

private theorem all_inside {c : LiveContainer} (hall : ∀ p ∈ c.particles, p.own ≠ .dummy → p.own = .owned ∧ InBox p.pos c.boxMin c.boxMax) :
    c.outside = [] ∧ c.inside = c.owned := by
  constructor
  · unfold LiveContainer.outside
    rw [List.filter_eq_nil_iff]
    intro p hp
    simp only [decide_eq_true_eq, not_and, not_not]
    exact fun hd => (hall p hp hd).2
  · unfold LiveContainer.inside LiveContainer.owned
    refine List.filter_congr fun p hp => ?_
    by_cases hd : p.own = .dummy
    · simp [hd]
    · have := hall p hp hd
      simp [this.1, this.2]

private theorem average_eq {N n : Nat} (hN : 0 < N) (len : N < 2 ^ 64) : liveAverage N 0 n = (N : Rat) / n := by
  unfold liveAverage sizeSub
  rw [if_neg (by omega)]
  have : (N + (2 ^ 64 - 0 % 2 ^ 64)) % 2 ^ 64 = N := by omega
  rw [this]

private theorem stdDev_eq {N : Nat} (hN : 0 < N) (cells : Finset (Nat × Nat × Nat)) (hc : 0 < cells.card) (count : Nat × Nat × Nat → Nat)
    (bins : List Nat) (hl : bins.length = cells.card)
    (hs : ∀ g : Nat → Rat, (bins.map g).sum = ∑ d ∈ cells, g (count d)) (hsum : ∑ d ∈ cells, count d = N) :
    (N : Rat) / cells.card = meanOver cells (fun d => count d) ∧
    liveStdDev N ((N : Rat) / cells.card) bins = some (stdDevOver cells (fun d => count d) / meanOver cells (fun d => count d) / Real.sqrt cells.card) := by
  have cp : (0 : Rat) < cells.card := by exact_mod_cast hc
  have cpr : (0 : ℝ) < cells.card := by exact_mod_cast hc
  have hm : (N : Rat) / cells.card = meanOver cells (fun d => count d) := by
    unfold meanOver; rw [← hsum]; push_cast; rfl
  have ne : ¬ (N : Rat) / cells.card = 0 := (div_pos (by exact_mod_cast hN) cp).ne'
  refine ⟨hm, ?_⟩
  unfold liveStdDev
  rw [if_neg (by omega), if_neg ne]
  congr 1
  have hv : liveSquares ((N : Rat) / cells.card) bins = varianceOver cells (fun d => count d) * cells.card := by
    unfold liveSquares
    rw [foldl_sum_rat (fun n => ((N : Rat) / cells.card - n) * ((N : Rat) / cells.card - n)), hs, zero_add]
    unfold varianceOver
    rw [← hm]
    show _ = (∑ d ∈ cells, ((count d : Rat) - (N : Rat) / cells.card) ^ 2) / _ * _
    rw [div_mul_cancel₀ _ cp.ne']
    exact Finset.sum_congr rfl fun d _ => by ring
  rw [hv, hm, hl]
  unfold stdDevOver
  push_cast
  rw [Real.sqrt_mul' _ cpr.le]
  have hsq : Real.sqrt cells.card * Real.sqrt cells.card = cells.card := Real.mul_self_sqrt cpr.le
  have sp : Real.sqrt cells.card ≠ 0 := (Real.sqrt_pos.2 cpr).ne'
  have mp : ((meanOver cells (fun d => (count d : Rat)) : Rat) : ℝ) ≠ 0 := by
    rw [← hm]; exact_mod_cast ne
  generalize Real.sqrt ((varianceOver cells fun d => (count d : Rat) : Rat) : ℝ) = v
  generalize Real.sqrt (cells.card : ℝ) = q at hsq sp ⊢
  generalize ((meanOver cells fun d => (count d : Rat) : Rat) : ℝ) = m at mp ⊢
  rw [← hsq]
  field_simp

/-- **C112, averages.** Without particles outside of the box the reported average is the mean number of particles per cell. The reported
standard deviations are the true relative standard deviations divided by the square root of the number of cells (see
`C112_violated_stdDev`): for the blurred cells, this is a constant factor. What is missing: containers with halo particles
(`C112_violated_average`), and the factor. -/
theorem C112_averages_partial (c : LiveContainer) (h : c.Ok) (small : c.dimsNat.x * c.dimsNat.y * c.dimsNat.z < 2 ^ 31)
    (len : c.particles.length < 2 ^ 64) (some' : c.owned ≠ [])
    (hall : ∀ p ∈ c.particles, p.own ≠ .dummy → p.own = .owned ∧ InBox p.pos c.boxMin c.boxMax) :
    ∃ info, c.gather = .ok info ∧
      let cells := gridCells c.dimsNat.x c.dimsNat.y c.dimsNat.z
      let count := fun d => (cellCount c.owned c.boxMin ⟨c.cutoff, c.cutoff, c.cutoff⟩ d : Rat)
      let third := fun d => (cellCount c.owned c.boxMin ⟨c.domainSize.x / 3, c.domainSize.y / 3, c.domainSize.z / 3⟩ d : Rat)
      info.avgParticlesPerCell = meanOver cells count ∧
      info.particlesPerCellStdDev = some (stdDevOver cells count / meanOver cells count / Real.sqrt cells.card) ∧
      info.particlesPerBlurredCellStdDev =
        some (stdDevOver (gridCells 3 3 3) third / meanOver (gridCells 3 3 3) third / Real.sqrt 27) := by
  obtain ⟨ho, hi⟩ := all_inside hall
  obtain ⟨hom, -, hg⟩ := gather_eq c h small
  have hN : 0 < c.owned.length := List.length_pos_iff.2 some'
  have hlen : c.owned.length < 2 ^ 64 := lt_of_le_of_lt (List.length_filter_le _ _) len
  have hcard := gridCells_card c.dimsNat.x c.dimsNat.y c.dimsNat.z
  have hpos := LiveContainer.numCells_pos h
  have hl : (c.cellCounts (c.dimsNat.x * c.dimsNat.y * c.dimsNat.z)).length = (gridCells c.dimsNat.x c.dimsNat.y c.dimsNat.z).card := by
    rw [hcard]; simp [LiveContainer.cellCounts]
  have A := stdDev_eq hN (gridCells c.dimsNat.x c.dimsNat.y c.dimsNat.z) (by rw [hcard]; exact hpos)
    (cellCount c.owned c.boxMin ⟨c.cutoff, c.cutoff, c.cutoff⟩) _ hl
    (fun g => by rw [LiveContainer.sum_cellCounts h _ rfl, hi]) (by rw [← hi]; exact sum_count_inside c h)
  have B := stdDev_eq hN (gridCells 3 3 3) (by rw [gridCells_card]; norm_num)
    (cellCount c.owned c.boxMin ⟨c.domainSize.x / 3, c.domainSize.y / 3, c.domainSize.z / 3⟩) c.blurredCounts
    (by rw [gridCells_card]; simp [LiveContainer.blurredCounts])
    (fun g => by rw [LiveContainer.sum_blurredCounts h, hi]) (by rw [← hi]; exact sum_count_blurred c h)
  refine ⟨_, hg, ?_, ?_, ?_⟩
  · show liveAverage _ _ _ = _
    rw [ho, List.length_nil, average_eq hN hlen, ← hcard]; exact A.1
  · show liveStdDev _ _ _ = _
    rw [ho, List.length_nil, average_eq hN hlen, ← hcard]
    conv_lhs => rw [hcard]
    rw [hcard] at A
    rw [A.2, hcard]
  · show liveStdDev _ _ _ = _
    rw [ho, List.length_nil, average_eq hN hlen]
    have e27 : (gridCells 3 3 3).card = 27 := by rw [gridCells_card]
    rw [e27] at B
    have := B.2
    push_cast at this ⊢
    exact this

/-- **C112 is violated: the standard deviation.** Documented is the standard deviation of the numbers of particles per cell divided by
their mean. As soon as there are two cells and not all cells contain equally many particles, the reported number is another one. -/
theorem C112_violated_stdDev (c : LiveContainer) (h : c.Ok) (small : c.dimsNat.x * c.dimsNat.y * c.dimsNat.z < 2 ^ 31)
    (len : c.particles.length < 2 ^ 64) (some' : c.owned ≠ [])
    (hall : ∀ p ∈ c.particles, p.own ≠ .dummy → p.own = .owned ∧ InBox p.pos c.boxMin c.boxMax)
    (two : 1 < (gridCells c.dimsNat.x c.dimsNat.y c.dimsNat.z).card)
    (uneven : stdDevOver (gridCells c.dimsNat.x c.dimsNat.y c.dimsNat.z)
      (fun d => (cellCount c.owned c.boxMin ⟨c.cutoff, c.cutoff, c.cutoff⟩ d : Rat)) ≠ 0) :
    ∃ info, c.gather = .ok info ∧
      let cells := gridCells c.dimsNat.x c.dimsNat.y c.dimsNat.z
      let count := fun d => (cellCount c.owned c.boxMin ⟨c.cutoff, c.cutoff, c.cutoff⟩ d : Rat)
      info.particlesPerCellStdDev ≠ some (stdDevOver cells count / meanOver cells count) := by
  obtain ⟨info, hg, h1, h2, -⟩ := C112_averages_partial c h small len some' hall
  refine ⟨info, hg, ?_⟩
  simp only at h1 h2 ⊢
  rw [h2]
  intro e
  have e' := Option.some.inj e
  have mne : (meanOver (gridCells c.dimsNat.x c.dimsNat.y c.dimsNat.z)
      (fun d => (cellCount c.owned c.boxMin ⟨c.cutoff, c.cutoff, c.cutoff⟩ d : Rat)) : ℝ) ≠ 0 := by
    obtain ⟨ho, hi⟩ := all_inside hall
    have hs := sum_count_inside c h
    rw [hi] at hs
    have hN : 0 < c.owned.length := List.length_pos_iff.2 some'
    have : 0 < meanOver (gridCells c.dimsNat.x c.dimsNat.y c.dimsNat.z)
        (fun d => (cellCount c.owned c.boxMin ⟨c.cutoff, c.cutoff, c.cutoff⟩ d : Rat)) := by
      unfold meanOver
      rw [← Nat.cast_sum, hs]
      exact div_pos (by exact_mod_cast hN) (by exact_mod_cast (by omega))
    exact_mod_cast this.ne'
  have q : stdDevOver (gridCells c.dimsNat.x c.dimsNat.y c.dimsNat.z)
      (fun d => (cellCount c.owned c.boxMin ⟨c.cutoff, c.cutoff, c.cutoff⟩ d : Rat)) / (meanOver (gridCells c.dimsNat.x c.dimsNat.y c.dimsNat.z)
      (fun d => (cellCount c.owned c.boxMin ⟨c.cutoff, c.cutoff, c.cutoff⟩ d : Rat)) : ℝ) ≠ 0 := div_ne_zero uneven mne
  have cpr : (1 : ℝ) < (gridCells c.dimsNat.x c.dimsNat.y c.dimsNat.z).card := by exact_mod_cast two
  have s1 : 1 < Real.sqrt (gridCells c.dimsNat.x c.dimsNat.y c.dimsNat.z).card := by
    rw [Real.lt_sqrt (by norm_num)]; simpa using cpr
  rw [div_eq_iff (by linarith)] at e'
  have : Real.sqrt (gridCells c.dimsNat.x c.dimsNat.y c.dimsNat.z).card = 1 := by
    refine mul_left_cancel₀ q ?_
    rw [mul_one]; exact e'.symm
  linarith

/-- One owned particle in a box of one cell, and two halo particles. -/
private def haloExample : LiveContainer :=
  ⟨⟨0, 0, 0⟩, ⟨1, 1, 1⟩, 1, 0, [⟨0, ⟨1 / 2, 1 / 2, 1 / 2⟩, .owned⟩, ⟨1, ⟨3 / 2, 1 / 2, 1 / 2⟩, .halo⟩, ⟨2, ⟨-1 / 2, 1 / 2, 1 / 2⟩, .halo⟩]⟩

private theorem haloExample_ok : haloExample.Ok := ⟨by norm_num [haloExample], by norm_num [haloExample], by norm_num [haloExample], by norm_num [haloExample]⟩

private theorem haloExample_dims : haloExample.dimsNat = ⟨1, 1, 1⟩ := by
  norm_num [haloExample, LiveContainer.dimsNat, LiveContainer.cellsPerDim, LiveContainer.domainSize]

private theorem gather_avg (c : LiveContainer) (h : c.Ok) (small : c.dimsNat.x * c.dimsNat.y * c.dimsNat.z < 2 ^ 31) :
    ∃ info, c.gather = .ok info ∧
      info.avgParticlesPerCell = liveAverage c.owned.length c.outside.length (c.dimsNat.x * c.dimsNat.y * c.dimsNat.z) := by
  obtain ⟨hom, -, hg⟩ := gather_eq c h small
  exact ⟨_, hg, rfl⟩

/-- **C112 is violated: the average.** The number of halo particles is subtracted from the number of owned particles, which does not
contain them, in unsigned arithmetic. For one owned particle in one cell, and two halo particles, the reported average number of
particles per cell is 18446744073709551615. -/
theorem C112_violated_average : ∃ c : LiveContainer, c.Ok ∧ c.owned.length = 1 ∧ c.outside.length = 2 ∧
    (gridCells c.dimsNat.x c.dimsNat.y c.dimsNat.z).card = 1 ∧
    ∃ info, c.gather = .ok info ∧ info.avgParticlesPerCell = 18446744073709551615 := by
  have ho : haloExample.owned.length = 1 := by simp [LiveContainer.owned, haloExample]
  have hout : haloExample.outside.length = 2 := by
    norm_num [LiveContainer.outside, haloExample, InBox, List.filter_cons]
    rfl
  obtain ⟨info, hg, havg⟩ := gather_avg haloExample haloExample_ok (by rw [haloExample_dims]; norm_num)
  refine ⟨haloExample, haloExample_ok, ho, hout, by simp [gridCells_card, haloExample_dims], info, hg, ?_⟩
  rw [havg, ho, hout, haloExample_dims]
  norm_num [liveAverage, sizeSub]

/-- **C112 is violated: many cells.** The number of cells is computed as a product of `int`. For a box of 1300 cutoffs in each direction
this overflows, which is undefined. -/
theorem C112_violated_many_cells : ∃ c : LiveContainer, c.Ok ∧ c.particles = [] ∧ c.gather = .ub := by
  refine ⟨⟨⟨0, 0, 0⟩, ⟨1300, 1300, 1300⟩, 1, 0, []⟩, ⟨by norm_num, by norm_num, by norm_num, by norm_num⟩, rfl, ?_⟩
  unfold LiveContainer.gather
  simp only
  rw [if_pos]
  right
  norm_num [LiveContainer.cellsPerDim, LiveContainer.domainSize]

/-! ### Homogeneity and maximum density -/

/-- **C112, homogeneity.** If all owned particles are in the box, the box is divided into `k * k * k` equal bins, where `k` is the cube
root, rounded down, of a tenth of the number of particles, rounded up. The homogeneity is the standard deviation of the densities of the
bins, the maximum density the density of the densest bin. -/
theorem C112_homogeneity (c : LiveContainer) (h : c.Ok) (some' : c.owned ≠ []) (hin : ∀ p ∈ c.owned, InBox p.pos c.boxMin c.boxMax) :
    ∃ (k : Nat) (hom : ℝ) (dens : Rat), 0 < k ∧ (k : Rat) ^ 3 ≤ ⌈(c.owned.length : Rat) / 10⌉ ∧
      (⌈(c.owned.length : Rat) / 10⌉ : Rat) < ((k : Rat) + 1) ^ 3 ∧ c.homogeneityAndMaxDensity = .ok (hom, dens) ∧
      let w : V3 Rat := ⟨c.domainSize.x / k, c.domainSize.y / k, c.domainSize.z / k⟩
      let density := fun d => (cellCount c.owned c.boxMin w d : Rat) / (w.x * w.y * w.z)
      hom = stdDevOver (gridCells k k k) density ∧
      (∀ d ∈ gridCells k k k, density d ≤ dens) ∧ ∃ d ∈ gridCells k k k, density d = dens := by
  have hN : 0 < c.owned.length := List.length_pos_iff.2 some'
  have hN' : 0 < c.numOwned := hN
  have hk := LiveContainer.binsPerDim_pos hN'
  have hcube : homogeneityBinsPerDim c.numOwned ^ 3 ≤ ⌈(c.numOwned : Rat) / 10⌉.toNat ∧
      ⌈(c.numOwned : Rat) / 10⌉.toNat < (homogeneityBinsPerDim c.numOwned + 1) ^ 3 :=
    LiveContainer.cubeRootFloor_spec ⌈(c.numOwned : Rat) / 10⌉.toNat
  have hceil : ((⌈(c.numOwned : Rat) / 10⌉.toNat : Nat) : Rat) = (⌈(c.numOwned : Rat) / 10⌉ : Rat) := by
    exact_mod_cast congrArg (Int.cast : Int → Rat) (ceil_toNat_cast (show (0 : Rat) < (c.numOwned : Rat) / 10 by positivity)).1
  refine ⟨homogeneityBinsPerDim c.numOwned, _, _, hk, ?_, ?_, LiveContainer.homogeneity_eq h, ?_⟩
  · rw [← LiveContainer.numOwned_eq, ← hceil]; exact_mod_cast hcube.1
  · rw [← LiveContainer.numOwned_eq, ← hceil]; exact_mod_cast hcube.2
  · generalize homogeneityBinsPerDim c.numOwned = k at hk
    have kp : (0 : Rat) < k := by exact_mod_cast hk
    have dx : 0 < c.domainSize.x := sub_pos.2 h.x
    have dy : 0 < c.domainSize.y := sub_pos.2 h.y
    have dz : 0 < c.domainSize.z := sub_pos.2 h.z
    have hvol : c.domainSize.x * c.domainSize.y * c.domainSize.z / ((k * k * k : Nat) : Rat) =
        c.domainSize.x / k * (c.domainSize.y / k) * (c.domainSize.z / k) := by push_cast; field_simp
    have hcard : ((gridCells k k k).card : Rat) = ((k * k * k : Nat) : Rat) := by rw [gridCells_card]
    have hsum : ∑ d ∈ gridCells k k k, cellCount c.owned c.boxMin ⟨c.domainSize.x / k, c.domainSize.y / k, c.domainSize.z / k⟩ d =
        c.owned.length := by
      have h1 := LiveContainer.sum_hCounts h k hk hin (fun n : Nat => n)
      rw [List.map_id'] at h1
      rw [← h1]
      exact LiveContainer.sum_countP c.owned (c.hBin k) (k * k * k) fun p _ => LiveContainer.hBin_range k hk p
    simp only
    rw [if_neg (by omega), hvol]
    set V := c.domainSize.x / k * (c.domainSize.y / k) * (c.domainSize.z / k) with hV
    have Vp : 0 < V := by positivity
    set w : V3 Rat := ⟨c.domainSize.x / k, c.domainSize.y / k, c.domainSize.z / k⟩ with hw
    have hmean : (c.numOwned : Rat) / (c.domainSize.x * c.domainSize.y * c.domainSize.z) =
        meanOver (gridCells k k k) (fun d => (cellCount c.owned c.boxMin w d : Rat) / V) := by
      unfold meanOver
      rw [← Finset.sum_div, ← Nat.cast_sum, hsum, hcard, ← LiveContainer.numOwned_eq, ← hvol]
      push_cast
      field_simp
    refine ⟨?_, ?_, ?_⟩
    · unfold stdDevOver
      congr 2
      unfold varianceOver
      rw [foldl_sum_rat' (fun d => (d - (c.numOwned : Rat) / (c.domainSize.x * c.domainSize.y * c.domainSize.z)) *
        (d - (c.numOwned : Rat) / (c.domainSize.x * c.domainSize.y * c.domainSize.z))), zero_add, List.map_map,
        LiveContainer.sum_hCounts h k hk hin, hmean, ← hcard]
      show _ = (∑ d ∈ gridCells k k k, _) / _
      congr 1
      exact Finset.sum_congr rfl fun d _ => by simp only [Function.comp]; ring
    · intro d hd
      refine (foldl_max_rat _ 0).1 _ (List.mem_map.2 ⟨_, (LiveContainer.mem_hCounts h k hk hin _).2 ⟨d, hd, rfl⟩, rfl⟩)
    · rcases (foldl_max_rat ((c.hCounts k).map fun (m : Nat) => (m : Rat) / V) 0).2.2 with h0 | h0
      · have hp : 0 < k * k * k := by positivity
        refine ⟨_, grid_inv_mem hp, ?_⟩
        have h1 := (foldl_max_rat ((c.hCounts k).map fun (m : Nat) => (m : Rat) / V) 0).1 _
          (List.mem_map.2 ⟨_, (LiveContainer.mem_hCounts h k hk hin _).2 ⟨_, grid_inv_mem hp, rfl⟩, rfl⟩)
        rw [h0] at h1 ⊢
        exact le_antisymm h1 (by positivity)
      · obtain ⟨m, hm, e⟩ := List.mem_map.1 h0
        obtain ⟨d, hd, rfl⟩ := (LiveContainer.mem_hCounts h k hk hin _).1 hm
        exact ⟨d, hd, e⟩

/-- **C112, homogeneity 0.** A homogeneity of 0 means that all bins contain equally many particles. -/
theorem C112_homogeneous (c : LiveContainer) (h : c.Ok) (some' : c.owned ≠ []) (hin : ∀ p ∈ c.owned, InBox p.pos c.boxMin c.boxMax)
    (hom : ℝ) (dens : Rat) (hr : c.homogeneityAndMaxDensity = .ok (hom, dens)) :
    ∃ k : Nat, 0 < k ∧ (k : Rat) ^ 3 ≤ ⌈(c.owned.length : Rat) / 10⌉ ∧ (⌈(c.owned.length : Rat) / 10⌉ : Rat) < ((k : Rat) + 1) ^ 3 ∧
      let w : V3 Rat := ⟨c.domainSize.x / k, c.domainSize.y / k, c.domainSize.z / k⟩
      (hom = 0 ↔ ∀ d ∈ gridCells k k k, ∀ d' ∈ gridCells k k k, cellCount c.owned c.boxMin w d = cellCount c.owned c.boxMin w d') := by
  obtain ⟨k, hom', dens', hk, k1, k2, he, e1, -, -⟩ := C112_homogeneity c h some' hin
  rw [he] at hr
  obtain ⟨rfl, rfl⟩ := Prod.mk.inj (Outcome.ok.inj hr)
  refine ⟨k, hk, k1, k2, ?_⟩
  simp only at e1 ⊢
  rw [e1]
  have kp : (0 : Rat) < k := by exact_mod_cast hk
  have dx : 0 < c.domainSize.x := sub_pos.2 h.x
  have dy : 0 < c.domainSize.y := sub_pos.2 h.y
  have dz : 0 < c.domainSize.z := sub_pos.2 h.z
  have Vp : 0 < c.domainSize.x / k * (c.domainSize.y / k) * (c.domainSize.z / k) := by positivity
  have hc : (0 : Rat) < (gridCells k k k).card := by rw [gridCells_card]; push_cast; positivity
  unfold stdDevOver
  set f : Nat × Nat × Nat → Rat := fun d => (cellCount c.owned c.boxMin ⟨c.domainSize.x / k, c.domainSize.y / k, c.domainSize.z / k⟩ d : Rat) /
    (c.domainSize.x / k * (c.domainSize.y / k) * (c.domainSize.z / k)) with hf
  have hv : 0 ≤ varianceOver (gridCells k k k) f := div_nonneg (Finset.sum_nonneg fun d _ => sq_nonneg _) hc.le
  rw [Real.sqrt_eq_zero (by exact_mod_cast hv)]
  have finj : ∀ d d', f d = f d' ↔ cellCount c.owned c.boxMin ⟨c.domainSize.x / k, c.domainSize.y / k, c.domainSize.z / k⟩ d =
      cellCount c.owned c.boxMin ⟨c.domainSize.x / k, c.domainSize.y / k, c.domainSize.z / k⟩ d' := by
    intro d d'
    rw [hf]
    simp only
    rw [div_left_inj' Vp.ne']
    exact Nat.cast_inj
  constructor
  · intro h0 d hd d' hd'
    have h0' : varianceOver (gridCells k k k) f = 0 := by exact_mod_cast h0
    unfold varianceOver meanOver at h0'
    rw [div_eq_zero_iff] at h0'
    have hz := (Finset.sum_eq_zero_iff_of_nonneg fun d _ => sq_nonneg _).1 (h0'.resolve_right hc.ne')
    have a := pow_eq_zero_iff (two_ne_zero) |>.1 (hz d hd)
    have b := pow_eq_zero_iff (two_ne_zero) |>.1 (hz d' hd')
    exact (finj d d').1 (by linarith)
  · intro hall
    have : varianceOver (gridCells k k k) f = 0 := by
      unfold varianceOver
      have hm : ∀ d ∈ gridCells k k k, f d = meanOver (gridCells k k k) f := by
        intro d hd
        unfold meanOver
        rw [Finset.sum_congr rfl fun d' hd' => (finj d' d).2 (hall d' hd' d hd), Finset.sum_const, nsmul_eq_mul, mul_div_cancel_left₀ _ hc.ne']
      unfold meanOver
      rw [Finset.sum_eq_zero fun d hd => by
        have := hm d hd
        unfold meanOver at this
        rw [← this, sub_self]; norm_num]
      simp
    rw [this]; simp

/-- **C112, homogeneity is always defined.** Wherever the owned particles are, also outside of the box, the calculation ends normally with
numbers that are not negative; without owned particles both are 0. -/
theorem C112_homogeneity_total (c : LiveContainer) (h : c.Ok) :
    ∃ (hom : ℝ) (dens : Rat), c.homogeneityAndMaxDensity = .ok (hom, dens) ∧ 0 ≤ hom ∧ 0 ≤ dens ∧ (c.owned = [] → hom = 0 ∧ dens = 0) := by
  refine ⟨_, _, LiveContainer.homogeneity_eq h, ?_, (foldl_max_rat _ 0).2.1, ?_⟩
  · split
    · exact le_rfl
    · exact Real.sqrt_nonneg _
  · intro h0
    have hn : c.numOwned = 0 := by rw [LiveContainer.numOwned_eq, h0]; rfl
    have hk : homogeneityBinsPerDim 0 = 0 := by simp [homogeneityBinsPerDim, cubeRootFloor]
    rw [if_pos hn, hn, hk]
    simp [LiveContainer.hCounts]

/-! ### Examples -/

/-- Three owned particles in a box of two cells, two of them in the first cell. -/
private def twoCells : LiveContainer :=
  ⟨⟨0, 0, 0⟩, ⟨2, 1, 1⟩, 1, 0, [⟨0, ⟨1 / 2, 1 / 2, 1 / 2⟩, .owned⟩, ⟨1, ⟨1 / 4, 1 / 2, 1 / 2⟩, .owned⟩, ⟨2, ⟨3 / 2, 1 / 2, 1 / 2⟩, .owned⟩]⟩

private theorem twoCells_ok : twoCells.Ok := ⟨by norm_num [twoCells], by norm_num [twoCells], by norm_num [twoCells], by norm_num [twoCells]⟩

private theorem twoCells_dims : twoCells.dimsNat = ⟨2, 1, 1⟩ := by
  norm_num [twoCells, LiveContainer.dimsNat, LiveContainer.cellsPerDim, LiveContainer.domainSize]
  rfl

private theorem twoCells_owned : twoCells.owned = twoCells.particles := by simp [LiveContainer.owned, twoCells]

private theorem twoCells_all : ∀ p ∈ twoCells.particles, p.own ≠ .dummy → p.own = .owned ∧ InBox p.pos twoCells.boxMin twoCells.boxMax := by
  norm_num [twoCells, InBox]

example : ∃ info, twoCells.gather = .ok info ∧ info.numParticles = 3 ∧ info.numCells = 2 ∧ info.avgParticlesPerCell = 3 / 2 := by
  obtain ⟨info, hg, h1, -, h2, -⟩ := C112_counts twoCells twoCells_ok (by rw [twoCells_dims]; norm_num) (by norm_num [twoCells])
  obtain ⟨info', hg', h3, -⟩ := C112_averages_partial twoCells twoCells_ok (by rw [twoCells_dims]; norm_num) (by norm_num [twoCells])
    (by rw [twoCells_owned]; simp [twoCells]) twoCells_all
  rw [hg] at hg'
  obtain rfl := Outcome.ok.inj hg'
  refine ⟨info, hg, ?_, ?_, ?_⟩
  · rw [h1, twoCells_owned]; rfl
  · simp [h2, gridCells_card, twoCells_dims]
  · rw [h3, twoCells_dims, twoCells_owned]
    unfold meanOver
    rw [gridCells_card]
    have e : gridCells 2 1 1 = {(0, 0, 0), (1, 0, 0)} := by decide
    rw [e, Finset.sum_pair (by decide)]
    norm_num [cellCount, twoCells, InGridCell, InBox]

/-- The hypotheses of `C112_violated_stdDev` can be met. -/
example : 1 < (gridCells twoCells.dimsNat.x twoCells.dimsNat.y twoCells.dimsNat.z).card ∧
    stdDevOver (gridCells twoCells.dimsNat.x twoCells.dimsNat.y twoCells.dimsNat.z)
      (fun d => (cellCount twoCells.owned twoCells.boxMin ⟨twoCells.cutoff, twoCells.cutoff, twoCells.cutoff⟩ d : Rat)) ≠ 0 := by
  rw [twoCells_dims, gridCells_card, twoCells_owned]
  refine ⟨by norm_num, ?_⟩
  unfold stdDevOver
  have e : gridCells 2 1 1 = {(0, 0, 0), (1, 0, 0)} := by decide
  have v : varianceOver (gridCells 2 1 1)
      (fun d => (cellCount twoCells.particles twoCells.boxMin ⟨twoCells.cutoff, twoCells.cutoff, twoCells.cutoff⟩ d : Rat)) = 1 / 4 := by
    unfold varianceOver meanOver
    rw [gridCells_card, e, Finset.sum_pair (by decide), Finset.sum_pair (by decide)]
    norm_num [cellCount, twoCells, InGridCell, InBox]
  rw [v]
  exact (Real.sqrt_pos.2 (by norm_num)).ne'

example : ∃ hom dens, twoCells.homogeneityAndMaxDensity = .ok (hom, dens) ∧ 0 ≤ hom := by
  obtain ⟨k, hom, dens, -, -, -, h, -⟩ := C112_homogeneity twoCells twoCells_ok (by rw [twoCells_owned]; simp [twoCells])
    (by rw [twoCells_owned]; norm_num [twoCells, InBox])
  obtain ⟨hom', dens', h', h0, -⟩ := C112_homogeneity_total twoCells twoCells_ok
  exact ⟨hom', dens', h', h0⟩

end Verif
