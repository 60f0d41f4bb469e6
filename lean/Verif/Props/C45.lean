import Verif.Model.RelevantCsfs
import Verif.Lemmas.IterTotal
import Mathlib.Tactic.Linarith
import Mathlib.Tactic.FieldSimp
/-!
# C45 — the relevant cell size factors stay in the interval and cover the cell counts
-/
namespace Verif

/-- The inputs make sense: positive lengths and a non-empty interval of positive factors. -/
structure Spec.GoodInterval (csfMin csfMax interactionLength domainLength : Rat) : Prop where
  minPos : 0 < csfMin
  ordered : csfMin ≤ csfMax
  ilPos : 0 < interactionLength
  lengthPos : 0 < domainLength

/-- With factor `f`, an axis has this many cells (rounding down, as a cell must not be shorter than the factor times the interaction length). -/
def Spec.cellsWith (interactionLength domainLength f : Rat) : Int := ⌊domainLength / (interactionLength * f)⌋

open Spec

theorem mem_relevantCsfs {lo hi il L : Rat} (h : GoodInterval lo hi il L) (f : Rat) :
    f ∈ calculateRelevantCsfs lo hi il L ↔ ∃ n : Nat, 1 ≤ n ∧ f = L / ((n : Rat) * il) ∧ lo ≤ f ∧ f ≤ hi := by
  obtain ⟨h1, h2, h3, h4⟩ := h
  have hhi : 0 < hi := lt_of_lt_of_le h1 h2
  unfold calculateRelevantCsfs
  rw [List.mem_map]
  have key : ∀ n : Nat, n ∈ forUp (numCellsMin hi il L) (numCellsMax lo il L + 1) 1 ↔ L / (il * hi) ≤ n ∧ (n : Rat) ≤ L / (il * lo) := by
    intro n
    rw [mem_forUp Nat.one_pos, Nat.mod_one]
    have e1 : numCellsMin hi il L ≤ n ↔ L / (il * hi) ≤ n := by
      unfold numCellsMin
      rw [Int.toNat_le, Int.ceil_le]
      simp
    have e2 : n < numCellsMax lo il L + 1 ↔ (n : Rat) ≤ L / (il * lo) := by
      unfold numCellsMax
      have hnn : 0 ≤ ⌊L / (il * lo)⌋ := Int.floor_nonneg.2 (div_nonneg h4.le (mul_pos h3 h1).le)
      rw [Nat.lt_succ_iff, Int.le_toNat hnn, Int.le_floor]
      simp
    rw [e1, e2]
    simp
  have pos : ∀ n : Nat, L / (il * hi) ≤ n → 1 ≤ n := by
    intro n hn
    have : (0 : Rat) < n := lt_of_lt_of_le (div_pos h4 (mul_pos h3 hhi)) hn
    exact_mod_cast this
  have conv : ∀ n : Nat, 1 ≤ n → ((L / (il * hi) ≤ n ↔ L / ((n : Rat) * il) ≤ hi) ∧ ((n : Rat) ≤ L / (il * lo) ↔ lo ≤ L / ((n : Rat) * il))) := by
    intro n hn
    have hn' : (0 : Rat) < n := by exact_mod_cast hn
    rw [div_le_iff₀ (mul_pos h3 hhi), div_le_iff₀ (mul_pos hn' h3), le_div_iff₀ (mul_pos h3 h1), le_div_iff₀ (mul_pos hn' h3)]
    constructor
    · rw [show (n : Rat) * (il * hi) = hi * (n * il) by ring]
    · rw [show (n : Rat) * (il * lo) = lo * (n * il) by ring]
  constructor
  · rintro ⟨n, hn, rfl⟩
    rw [key] at hn
    have hp := pos n hn.1
    exact ⟨n, hp, rfl, (conv n hp).2.1 hn.2, (conv n hp).1.1 hn.1⟩
  · rintro ⟨n, hp, rfl, hlo, hhi'⟩
    exact ⟨n, (key n).2 ⟨(conv n hp).1.2 hhi', (conv n hp).2.2 hlo⟩, rfl⟩

/-- C45, first part: all factors lie in the interval and divide the axis into whole cells. -/
theorem C45_in_interval {lo hi il L : Rat} (h : GoodInterval lo hi il L) {f : Rat} (hf : f ∈ calculateRelevantCsfs lo hi il L) :
    lo ≤ f ∧ f ≤ hi ∧ ∃ n : Nat, 1 ≤ n ∧ (n : Rat) * (f * il) = L := by
  obtain ⟨n, hn, rfl, h1, h2⟩ := (mem_relevantCsfs h f).1 hf
  have hn' : (n : Rat) ≠ 0 := by
    have : (0 : Rat) < n := by exact_mod_cast hn
    exact this.ne'
  have hil := h.ilPos.ne'
  exact ⟨h1, h2, n, hn, by field_simp⟩

/-- C45, second part (partial): every number of cells reachable with a factor of the interval is the number of cells of one of the computed factors, unless
it is the smallest reachable number (the one of the largest factor). Missing: the smallest number, see `C45_violated`. -/
theorem C45_cell_counts_partial {lo hi il L : Rat} (h : GoodInterval lo hi il L) {f : Rat} (h1 : lo ≤ f) (h2 : f ≤ hi)
    (hne : cellsWith il L f ≠ cellsWith il L hi) :
    ∃ g ∈ calculateRelevantCsfs lo hi il L, cellsWith il L g = cellsWith il L f := by
  have hf : 0 < f := lt_of_lt_of_le h.minPos h1
  have hhi : 0 < hi := lt_of_lt_of_le hf h2
  have hle : L / (il * hi) ≤ L / (il * f) :=
    div_le_div_of_nonneg_left h.lengthPos.le (mul_pos h.ilPos hf) (mul_le_mul_of_nonneg_left h2 h.ilPos.le)
  have hmono : cellsWith il L hi ≤ cellsWith il L f := Int.floor_le_floor hle
  have hgt : cellsWith il L hi < cellsWith il L f := lt_of_le_of_ne hmono (Ne.symm hne)
  have h0 : 0 ≤ cellsWith il L hi := Int.floor_nonneg.2 (div_nonneg h.lengthPos.le (mul_pos h.ilPos hhi).le)
  obtain ⟨n, hn⟩ := Int.eq_ofNat_of_zero_le (le_trans h0 hmono)
  have hn1 : 1 ≤ n := by omega
  have hnpos : (0 : Rat) < n := by exact_mod_cast hn1
  have ha : (n : Rat) ≤ L / (il * f) := by
    have := Int.floor_le (L / (il * f))
    have e : ((⌊L / (il * f)⌋ : Int) : Rat) = n := by
      have : ⌊L / (il * f)⌋ = (n : Int) := hn
      rw [this]; simp
    rwa [e] at this
  have hb : L / (il * hi) < n := by
    have : ⌊L / (il * hi)⌋ < (n : Int) := by rw [hn] at hgt; exact hgt
    have := Int.floor_lt.1 this
    simpa using this
  have hil := h.ilPos.ne'
  have hL := h.lengthPos.ne'
  have e : il * (L / ((n : Rat) * il)) = L / n := by field_simp
  refine ⟨L / ((n : Rat) * il), (mem_relevantCsfs h _).2 ⟨n, hn1, rfl, ?_, ?_⟩, ?_⟩
  · rw [le_div_iff₀ (mul_pos hnpos h.ilPos)]
    rw [le_div_iff₀ (mul_pos h.ilPos hf)] at ha
    have : lo * (n * il) ≤ f * (n * il) := mul_le_mul_of_nonneg_right h1 (mul_pos hnpos h.ilPos).le
    linarith [show f * (n * il) = n * (il * f) by ring]
  · rw [div_le_iff₀ (mul_pos hnpos h.ilPos)]
    rw [div_lt_iff₀ (mul_pos h.ilPos hhi)] at hb
    linarith [show (n : Rat) * (il * hi) = hi * (n * il) by ring]
  · rw [hn]
    unfold cellsWith
    rw [e, div_div_eq_mul_div, mul_comm, mul_div_assoc, div_self hL, mul_one]
    simp

/-- Every factor of the interval that divides the axis into whole cells is computed. -/
theorem C45_exact_factors {lo hi il L : Rat} (h : GoodInterval lo hi il L) {f : Rat} (h1 : lo ≤ f) (h2 : f ≤ hi) {n : Nat} (hn : (n : Rat) * (f * il) = L) :
    f ∈ calculateRelevantCsfs lo hi il L := by
  have hn1 : 1 ≤ n := by
    rcases Nat.eq_zero_or_pos n with rfl | hp
    · have := h.lengthPos; simp only [Nat.cast_zero, zero_mul] at hn; linarith
    · exact hp
  have hnpos : (0 : Rat) < n := by exact_mod_cast hn1
  refine (mem_relevantCsfs h f).2 ⟨n, hn1, ?_, h1, h2⟩
  rw [eq_div_iff (mul_pos hnpos h.ilPos).ne', ← hn]; ring

/-- C45 fails: for a domain of length 5/2 and factors from 1 to 1 (one factor, two cells) nothing is computed at all; for factors from 1/2 to 1 the two cells
of factor 1 are not represented. -/
theorem C45_violated : (GoodInterval 1 1 1 (5/2) ∧ cellsWith 1 (5/2) 1 = 2 ∧ ∀ f, f ∉ calculateRelevantCsfs 1 1 1 (5/2)) ∧
    (GoodInterval (1/2) 1 1 (5/2) ∧ ∀ f ∈ calculateRelevantCsfs (1/2) 1 1 (5/2), cellsWith 1 (5/2) f ≠ 2) := by
  have g1 : GoodInterval 1 1 1 (5/2) := ⟨by norm_num, by norm_num, by norm_num, by norm_num⟩
  have g2 : GoodInterval (1/2) 1 1 (5/2) := ⟨by norm_num, by norm_num, by norm_num, by norm_num⟩
  refine ⟨⟨g1, by unfold cellsWith; norm_num, ?_⟩, g2, ?_⟩
  · intro f hf
    obtain ⟨n, hn, rfl, h1, h2⟩ := (mem_relevantCsfs g1 f).1 hf
    have hp : (0 : Rat) < n := by exact_mod_cast hn
    rw [mul_one, le_div_iff₀ hp] at h1
    rw [mul_one, div_le_iff₀ hp] at h2
    have a : (n : Rat) < 3 := by linarith
    have b : (2 : Rat) < n := by linarith
    have a' : n < 3 := by exact_mod_cast a
    have b' : 2 < n := by exact_mod_cast b
    omega
  · intro f hf hc
    obtain ⟨n, hn, rfl, h1, h2⟩ := (mem_relevantCsfs g2 f).1 hf
    have hp : (0 : Rat) < n := by exact_mod_cast hn
    rw [mul_one, div_le_iff₀ hp] at h2
    have b : (2 : Rat) < n := by linarith
    have b' : 2 < n := by exact_mod_cast b
    unfold cellsWith at hc
    have e : (5/2 : Rat) / (1 * (5/2 / ((n : Rat) * 1))) = n := by field_simp
    rw [e, Int.floor_natCast] at hc
    omega

/-- Domain 10, interaction length 1, factors from 1 to 2: the factors 2, 10/6, 10/7, 10/8, 10/9 and 1. -/
example : GoodInterval 1 2 1 10 ∧ (10/7 : Rat) ∈ calculateRelevantCsfs 1 2 1 10 ∧ cellsWith 1 10 (3/2) = 6 ∧ cellsWith 1 10 2 = 5 := by
  have g : GoodInterval 1 2 1 10 := ⟨by norm_num, by norm_num, by norm_num, by norm_num⟩
  refine ⟨g, (mem_relevantCsfs g _).2 ⟨7, by norm_num, by norm_num, by norm_num, by norm_num⟩, ?_, ?_⟩ <;> unfold cellsWith <;> norm_num

end Verif
