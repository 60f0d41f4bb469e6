import Verif.Lemmas.CellOp
/-! Counting functor calls through coordinates instead of flat cell numbers. -/
namespace Verif
open Spec

/-- Call on the cells numbered `i`, `j`. -/
def mkOp (i j : Int) (d : V3 Rat) : CellOp := if i = j then .self i else .pair i j d

/-- `ops` are the calls `mkOp (flat (f q)) (flat (g q))` for `q` in the duplicate-free list `Q`. -/
structure Coded {α : Type} (dims : V3 Nat) (ops : List CellOp) (Q : List α) (f g : α → V3 Nat) : Prop where
  nodup : Q.Nodup
  gridf : ∀ q ∈ Q, InGrid (f q) dims
  gridg : ∀ q ∈ Q, InGrid (g q) dims
  eq : ∃ d : α → V3 Rat, ops = Q.map fun q => mkOp (threeToOneD (f q) dims) (threeToOneD (g q) dims) (d q)

variable {α : Type} {dims : V3 Nat} {ops : List CellOp} {Q : List α} {f g : α → V3 Nat}

theorem flat_iff {a b : V3 Nat} (ha : InGrid a dims) (hb : InGrid b dims) :
    (threeToOneD a dims : Int) = threeToOneD b dims ↔ a = b :=
  ⟨fun h => flat_inj ha hb (by exact_mod_cast h), fun h => by rw [h]⟩

theorem Coded.timesPair [DecidableEq α] (h : Coded dims ops Q f g) {a b : V3 Nat} (ha : InGrid a dims)
    (hb : InGrid b dims) (hab : a ≠ b) :
    Spec.timesPair ops (threeToOneD a dims) (threeToOneD b dims) =
      Q.countP (fun q => decide ((f q = a ∧ g q = b) ∨ (f q = b ∧ g q = a))) := by
  obtain ⟨d, rfl⟩ := h.eq
  unfold Spec.timesPair
  rw [List.countP_map]
  apply List.countP_congr
  intro q hq
  have hf := h.gridf q hq
  have hg := h.gridg q hq
  simp only [Function.comp, mkOp]
  split_ifs with e
  · rw [flat_iff hf hg] at e
    simp only [decide_eq_true_eq, false_iff]
    rw [e]
    rintro (⟨h1, h2⟩ | ⟨h1, h2⟩)
    · exact hab (h1.symm.trans h2)
    · exact hab (h2.symm.trans h1)
  · simp only [decide_eq_true_eq, flat_iff hf ha, flat_iff hg hb, flat_iff hf hb, flat_iff hg ha]

theorem Coded.timesSelf (h : Coded dims ops Q f g) {a : V3 Nat} (ha : InGrid a dims) :
    Spec.timesSelf ops (threeToOneD a dims) = Q.countP (fun q => decide (f q = a ∧ g q = a)) := by
  obtain ⟨d, rfl⟩ := h.eq
  unfold Spec.timesSelf
  rw [List.countP_map]
  apply List.countP_congr
  intro q hq
  have hf := h.gridf q hq
  have hg := h.gridg q hq
  simp only [Function.comp, mkOp]
  split_ifs with e
  · rw [flat_iff hf hg] at e
    simp only [decide_eq_true_eq, e, flat_iff hg ha, and_self]
  · rw [flat_iff hf hg] at e
    simp only [decide_eq_true_eq, false_iff]
    rintro ⟨h1, h2⟩
    exact e (h1.trans h2.symm)

theorem Coded.timesPair_one [DecidableEq α] (h : Coded dims ops Q f g) {a b : V3 Nat} (ha : InGrid a dims)
    (hb : InGrid b dims) (hab : a ≠ b)
    (hex : ∃ q ∈ Q, (f q = a ∧ g q = b) ∨ (f q = b ∧ g q = a))
    (huniq : ∀ q ∈ Q, ∀ r ∈ Q, f q = f r → g q = g r → q = r)
    (hanti : ∀ q ∈ Q, ∀ r ∈ Q, f q = g r → g q = f r → f q = g q) :
    Spec.timesPair ops (threeToOneD a dims) (threeToOneD b dims) = 1 := by
  rw [h.timesPair ha hb hab]
  obtain ⟨q, hq, hm⟩ := hex
  refine countP_eq_one_of_unique h.nodup hq (by simpa using hm) ?_
  intro r hr hp
  simp only [decide_eq_true_eq] at hp
  rcases hp with h1 | h1 <;> rcases hm with h2 | h2
  · exact huniq r hr q hq (h1.1.trans h2.1.symm) (h1.2.trans h2.2.symm)
  · have := hanti r hr q hq (h1.1.trans h2.2.symm) (h1.2.trans h2.1.symm)
    exact absurd (h1.1.symm.trans (this.trans h1.2)) hab
  · have := hanti r hr q hq (h1.1.trans h2.2.symm) (h1.2.trans h2.1.symm)
    exact absurd (h1.2.symm.trans (this.symm.trans h1.1)) hab
  · exact huniq r hr q hq (h1.1.trans h2.1.symm) (h1.2.trans h2.2.symm)

theorem Coded.timesPair_le_one [DecidableEq α] (h : Coded dims ops Q f g) {a b : V3 Nat} (ha : InGrid a dims)
    (hb : InGrid b dims) (hab : a ≠ b)
    (huniq : ∀ q ∈ Q, ∀ r ∈ Q, f q = f r → g q = g r → q = r)
    (hanti : ∀ q ∈ Q, ∀ r ∈ Q, f q = g r → g q = f r → f q = g q) :
    Spec.timesPair ops (threeToOneD a dims) (threeToOneD b dims) ≤ 1 := by
  by_cases hex : ∃ q ∈ Q, (f q = a ∧ g q = b) ∨ (f q = b ∧ g q = a)
  · exact Nat.le_of_eq (h.timesPair_one ha hb hab hex huniq hanti)
  · rw [h.timesPair ha hb hab, List.countP_eq_zero.2]
    · omega
    · intro q hq hp
      exact hex ⟨q, hq, by simpa using hp⟩

theorem Coded.timesSelf_one [DecidableEq α] (h : Coded dims ops Q f g) {a : V3 Nat} (ha : InGrid a dims)
    (hex : ∃ q ∈ Q, f q = a ∧ g q = a)
    (huniq : ∀ q ∈ Q, ∀ r ∈ Q, f q = f r → g q = g r → q = r) :
    Spec.timesSelf ops (threeToOneD a dims) = 1 := by
  rw [h.timesSelf ha]
  obtain ⟨q, hq, hm⟩ := hex
  refine countP_eq_one_of_unique h.nodup hq (by simpa using hm) ?_
  intro r hr hp
  simp only [decide_eq_true_eq] at hp
  exact huniq r hr q hq (hp.1.trans hm.1.symm) (hp.2.trans hm.2.symm)

/-- Every call uses valid, and for pairs different, cells. -/
theorem Coded.valid (h : Coded dims ops Q f g) {op : CellOp} (hop : op ∈ ops) :
    (∀ i ∈ touched op, 0 ≤ i ∧ i < numCells dims) ∧ (touched op).Nodup := by
  obtain ⟨d, rfl⟩ := h.eq
  rw [List.mem_map] at hop
  obtain ⟨q, hq, rfl⟩ := hop
  have bA := flat_lt (h.gridf q hq)
  have bB := flat_lt (h.gridg q hq)
  simp only [mkOp]
  split_ifs with e
  · simp only [touched, List.mem_singleton, List.nodup_cons, List.not_mem_nil, not_false_eq_true, List.nodup_nil,
      and_self, and_true]
    rintro i rfl; omega
  · simp only [touched, List.mem_cons, List.not_mem_nil, or_false, List.nodup_cons, not_false_eq_true,
      List.nodup_nil, and_true]
    refine ⟨?_, e⟩
    rintro i (rfl | rfl) <;> omega

/-- Bases with base-dependent iterations. -/
def basePairsD {β : Type} (bases : List (V3 Nat)) (idx : V3 Nat → List β) : List (V3 Nat × β) :=
  bases.flatMap fun b => (idx b).map fun t => (b, t)

theorem nodup_basePairsD {β : Type} {bases : List (V3 Nat)} {idx : V3 Nat → List β} (hb : bases.Nodup)
    (hi : ∀ b ∈ bases, (idx b).Nodup) : (basePairsD bases idx).Nodup := by
  refine nodup_flatMap_key (fun p => p.1) hb ?_ ?_
  · intro b hb
    exact List.Nodup.map (fun a c h => by simpa using h) (hi b hb)
  · intro b _ p hp
    rw [List.mem_map] at hp; obtain ⟨t, _, rfl⟩ := hp; rfl

theorem mem_basePairsD {β : Type} {bases : List (V3 Nat)} {idx : V3 Nat → List β} {b : V3 Nat} {t : β} :
    (b, t) ∈ basePairsD bases idx ↔ b ∈ bases ∧ t ∈ idx b := by
  simp [basePairsD]

/-- The cell at a signed offset. -/
def shift (b : V3 Nat) (t : Int × Int × Int) : V3 Nat :=
  ⟨(b.x + t.1).toNat, (b.y + t.2.1).toNat, (b.z + t.2.2).toNat⟩

theorem flat_shift {b : V3 Nat} {x y z : Int} (hx : 0 ≤ b.x + x) (hy : 0 ≤ b.y + y) (hz : 0 ≤ b.z + z) :
    (threeToOneD b dims : Int) + threeToOneDInt x y z dims.toInt = threeToOneD (shift b (x, y, z)) dims := by
  rw [flatInt_add, ← flatInt_nat]
  simp only [shift, Int.toNat_of_nonneg hx, Int.toNat_of_nonneg hy, Int.toNat_of_nonneg hz]

/-- Cells ordered by number are ordered by their z coordinate. -/
theorem flat_le_z {a b : V3 Nat} (hb : InGrid b dims) (h : threeToOneD a dims ≤ threeToOneD b dims) :
    a.z ≤ b.z := by
  obtain ⟨hx, hy, -⟩ := hb
  by_contra hlt
  have hlt : b.z + 1 ≤ a.z := by omega
  unfold threeToOneD at h
  have h1 : (b.z * dims.y + b.y + 1) * dims.x ≤ (a.z * dims.y + a.y) * dims.x := by
    apply Nat.mul_le_mul_right
    have : (b.z + 1) * dims.y ≤ a.z * dims.y := Nat.mul_le_mul_right _ hlt
    rw [Nat.add_mul] at this; omega
  rw [Nat.add_mul] at h1
  omega

theorem gap_eq {cl : V3 Rat} {a b : V3 Nat} {x y z : Int} (hx : (a.x : Int) + x = b.x) (hy : (a.y : Int) + y = b.y)
    (hz : (a.z : Int) + z = b.z) : (gapVec cl x y z).dot (gapVec cl x y z) = cellGapSq cl a b := by
  have key : ∀ n : Int, ((max 0 (n - 1) : Int) : Rat) = max 0 ((n : Rat) - 1) := by intro n; push_cast; rfl
  unfold cellGapSq gapVec V3.dot
  simp only [key]
  rw [axisGap_sq_eq cl.x a.x b.x, axisGap_sq_eq cl.y a.y b.y, axisGap_sq_eq cl.z a.z b.z] <;>
    (unfold axisDist; split <;> omega)

end Verif
