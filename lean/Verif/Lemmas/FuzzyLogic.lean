import Mathlib.Tactic.Linarith
import Mathlib.Tactic.Ring
import Mathlib.Tactic.FieldSimp
import Mathlib.Tactic.Positivity
import Mathlib.Algebra.Order.BigOperators.Group.Finset
import Mathlib.Algebra.BigOperators.Ring.Finset
import Mathlib.Algebra.BigOperators.Field
import Mathlib.Analysis.SpecialFunctions.Exp
import Verif.Spec.FuzzyTuning
import Verif.Lemmas.LogicControl
/-! Facts about membership functions, fuzzy sets and defuzzification. -/
namespace Verif
open Spec

noncomputable instance : HasExp ℝ := ⟨Real.exp, Real.exp_pos, Real.exp_zero, fun _ _ h => Real.exp_le_exp.2 h⟩

section
variable {K : Type} [Field K] [LinearOrder K] [IsStrictOrderedRing K]

theorem div_unit {a b : K} (h0 : 0 ≤ a) (h : a ≤ b) (hb : 0 < b) : 0 ≤ a / b ∧ a / b ≤ 1 :=
  ⟨div_nonneg h0 hb.le, (div_le_one hb).2 h⟩

theorem sq_unit {a : K} (h : 0 ≤ a ∧ a ≤ 1) : 0 ≤ a ^ 2 ∧ a ^ 2 ≤ 1 :=
  ⟨sq_nonneg a, by nlinarith [h.1, h.2]⟩

theorem sShape_unit {x l c u : K} : 0 ≤ sShape x l c u ∧ sShape x l c u ≤ 1 := by
  unfold sShape
  split_ifs with h1 h2 h3
  · exact ⟨le_refl 0, zero_le_one⟩
  · obtain ⟨ha, hb⟩ := sq_unit (div_unit (a := x - l) (b := c - l) (by linarith) (by linarith [h2.2]) (by linarith [h2.2, not_le.1 h1]))
    constructor <;> linarith
  · have hcx : c < x := by
      rcases lt_or_ge c x with h | h
      · exact h
      · exact absurd ⟨(not_le.1 h1).le, h⟩ h2
    have hcu : c < u := lt_of_lt_of_le hcx h3.2
    have he : (x - u) / (c - u) = (u - x) / (u - c) := by
      rw [← neg_sub u x, ← neg_sub u c, neg_div_neg_eq]
    rw [he]
    obtain ⟨ha, hb⟩ := sq_unit (div_unit (a := u - x) (b := u - c) (by linarith [h3.2]) (by linarith) (by linarith))
    constructor <;> linarith
  · exact ⟨zero_le_one, le_refl 1⟩

/-- Degrees are between 0 and 1. -/
theorem fn_unit [HasExp K] (f : MembershipFn K) (x : K) : 0 ≤ f.eval x ∧ f.eval x ≤ 1 := by
  cases f with
  | triangle lo p hi =>
    simp only [MembershipFn.eval]
    split_ifs with h1 h2
    · exact ⟨le_refl 0, zero_le_one⟩
    · rw [not_or, not_le, not_le] at h1
      exact div_unit (by linarith [h1.1]) (by linarith) (by linarith [h1.1])
    · rw [not_or, not_le, not_le] at h1
      rw [not_le] at h2
      exact div_unit (by linarith [h1.2]) (by linarith) (by linarith [h1.2])
  | trapezoid lo l r hi =>
    simp only [MembershipFn.eval]
    split_ifs with h1 h2 h3
    · exact ⟨le_refl 0, zero_le_one⟩
    · rw [not_or, not_le, not_le] at h1
      exact div_unit (by linarith [h1.1]) (by linarith) (by linarith [h1.1])
    · exact ⟨zero_le_one, le_refl 1⟩
    · rw [not_or, not_le, not_le] at h1
      rw [not_le] at h3
      exact div_unit (by linarith [h1.2]) (by linarith) (by linarith [h1.2])
  | gaussian m s =>
    simp only [MembershipFn.eval]
    refine ⟨(HasExp.exp_pos _).le, ?_⟩
    have h := sq_nonneg ((x - m) / s)
    have := HasExp.exp_mono (-(1 / 2) * ((x - m) / s) ^ 2) 0 (by linarith)
    rwa [HasExp.exp_zero] at this
  | sigmoid c s =>
    simp only [MembershipFn.eval]
    have := HasExp.exp_pos (K := K) (-s * (x - c))
    exact div_unit zero_le_one (by linarith) (by linarith)
  | sigmoidFinite l c u =>
    simp only [MembershipFn.eval]
    split_ifs
    · have := sShape_unit (x := x) (l := u) (c := c) (u := l)
      constructor <;> linarith [this.1, this.2]
    · exact sShape_unit

theorem set_unit [HasExp K] : ∀ (s : FuzzySet K), ProperSet s → ∀ {data : FuzzyData K} {d : K}, s.eval data = .ok d →
    0 ≤ d ∧ d ≤ 1 := by
  intro s
  induction s with
  | base dim lo hi f =>
    intro _ data d h
    simp only [FuzzySet.eval] at h
    split at h
    · simp at h
    · cases h; exact fn_unit f _
  | or a b iha ihb =>
    intro hp data d h
    simp only [FuzzySet.eval] at h
    obtain ⟨x, hx, h⟩ := Outcome.bind_ok.1 h
    obtain ⟨y, hy, h⟩ := Outcome.bind_ok.1 h
    cases h
    have h1 := iha hp.1 hx
    have h2 := ihb hp.2 hy
    exact ⟨h1.1.trans (le_max_left _ _), max_le h1.2 h2.2⟩
  | and a b iha ihb =>
    intro hp data d h
    simp only [FuzzySet.eval] at h
    obtain ⟨x, hx, h⟩ := Outcome.bind_ok.1 h
    obtain ⟨y, hy, h⟩ := Outcome.bind_ok.1 h
    cases h
    have h1 := iha hp.1 hx
    have h2 := ihb hp.2 hy
    exact ⟨le_min h1.1 h2.1, (min_le_left _ _).trans h1.2⟩
  | not a ih =>
    intro hp data d h
    simp only [FuzzySet.eval] at h
    obtain ⟨x, hx, h⟩ := Outcome.bind_ok.1 h
    cases h
    have h1 := ih hp hx
    constructor <;> linarith [h1.1, h1.2]
  | cut c a ih =>
    intro hp data d h
    simp only [FuzzySet.eval] at h
    obtain ⟨x, hx, h⟩ := Outcome.bind_ok.1 h
    cases h
    have h1 := ih hp.2 hx
    exact ⟨le_min hp.1.1 h1.1, (min_le_left _ _).trans hp.1.2⟩

omit [IsStrictOrderedRing K] in
/-- A set whose only dimension is `name` can be evaluated from a value for `name`. -/
theorem eval_onlyValue [HasExp K] (name : String) (x : K) : ∀ (s : FuzzySet K), (∀ d ∈ s.dims, d.1 = name) →
    ∃ m, s.eval (onlyValue name x) = .ok m := by
  intro s
  have hsplit : ∀ (a b : FuzzySet K),
      (∀ d ∈ a.dims ++ b.dims.filter (fun d => !(a.dims.map (·.1)).contains d.1), d.1 = name) →
      (∀ d ∈ a.dims, d.1 = name) ∧ ∀ d ∈ b.dims, d.1 = name := by
    intro a b h
    refine ⟨fun d hd => h d (by simp [hd]), ?_⟩
    intro d hd
    by_cases hc : (a.dims.map (·.1)).contains d.1 = true
    · rw [List.contains_iff_mem, List.mem_map] at hc
      obtain ⟨d', hd', he⟩ := hc
      rw [← he]
      exact h d' (by simp [hd'])
    · apply h d
      rw [List.mem_append, List.mem_filter]
      exact .inr ⟨hd, by simpa using hc⟩
  induction s with
  | base dim lo hi f =>
    intro h
    have := h (dim, lo, hi) (by simp [FuzzySet.dims])
    simp only at this
    exact ⟨f.eval x, by simp [FuzzySet.eval, onlyValue, this]⟩
  | or a b iha ihb =>
    intro h
    obtain ⟨h1, h2⟩ := hsplit a b h
    obtain ⟨m, hm⟩ := iha h1
    obtain ⟨n, hn⟩ := ihb h2
    exact ⟨max m n, by simp [FuzzySet.eval, hm, hn, Outcome.bind]⟩
  | and a b iha ihb =>
    intro h
    obtain ⟨h1, h2⟩ := hsplit a b h
    obtain ⟨m, hm⟩ := iha h1
    obtain ⟨n, hn⟩ := ihb h2
    exact ⟨min m n, by simp [FuzzySet.eval, hm, hn, Outcome.bind]⟩
  | not a ih =>
    intro h
    obtain ⟨m, hm⟩ := ih h
    exact ⟨1 - m, by simp [FuzzySet.eval, hm, Outcome.bind]⟩
  | cut c a ih =>
    intro h
    obtain ⟨m, hm⟩ := ih h
    exact ⟨min c m, by simp [FuzzySet.eval, hm, Outcome.bind]⟩

/-- The union of the cut consequents. -/
theorem applyRules_spec [HasExp K] {data : FuzzyData K} {name : String} {lo hi : K} : ∀ (rs : List (FuzzyRule K)),
    (∀ r ∈ rs, r.consequent.dims = [(name, lo, hi)]) → (∀ r ∈ rs, ∃ a, r.antecedent.eval data = .ok a) →
    ∀ (r0 : List (FuzzyRule K)) (u : FuzzySet K), u.dims = [(name, lo, hi)] →
      (∀ x, ∃ m, u.eval (onlyValue name x) = .ok m ∧ SuggestedDegree r0 data name x m) →
      ∃ u', rs.foldl (fun acc r => acc.bind fun a => (r.apply data).bind fun b => .ok (FuzzySet.or a b)) (Outcome.ok u) = .ok u' ∧
        u'.dims = [(name, lo, hi)] ∧
        ∀ x, ∃ m, u'.eval (onlyValue name x) = .ok m ∧ SuggestedDegree (r0 ++ rs) data name x m := by
  intro rs
  induction rs with
  | nil => intro _ _ r0 u hu hm; exact ⟨u, rfl, hu, by simpa using hm⟩
  | cons r rs ih =>
    intro hd ha r0 u hu hm
    obtain ⟨a, hra⟩ := ha r (by simp)
    have hrd := hd r (by simp)
    have happ : r.apply data = .ok (.cut a r.consequent) := by simp [FuzzyRule.apply, hra, Outcome.bind]
    obtain ⟨u', h1, h2, h3⟩ := ih (fun r hr => hd r (by simp [hr])) (fun r hr => ha r (by simp [hr])) (r0 ++ [r])
      (.or u (.cut a r.consequent)) (by simp [FuzzySet.dims, hu, hrd]) (by
        intro x
        obtain ⟨m, hm1, hm2⟩ := hm x
        obtain ⟨c, hc⟩ := eval_onlyValue name x r.consequent (by rw [hrd]; simp)
        refine ⟨max m (min a c), by simp [FuzzySet.eval, hm1, hc, Outcome.bind], ?_, ?_⟩
        · rcases max_choice m (min a c) with hx | hx
          · rw [hx]
            obtain ⟨r', hr', rest⟩ := hm2.1
            exact ⟨r', by simp [hr'], rest⟩
          · rw [hx]
            exact ⟨r, by simp, a, c, hra, hc, rfl⟩
        · rintro d ⟨r', hr', a', c', h1, h2, rfl⟩
          rw [List.mem_append, List.mem_singleton] at hr'
          rcases hr' with hr' | rfl
          · exact (hm2.2 ⟨r', hr', a', c', h1, h2, rfl⟩).trans (le_max_left _ _)
          · rw [hra] at h1; rw [hc] at h2
            cases h1; cases h2
            exact le_max_right _ _)
    refine ⟨u', ?_, h2, ?_⟩
    · rw [List.foldl_cons]
      rw [happ]
      exact h1
    · simpa using h3

theorem system_union [HasExp K] {s : FuzzySystem K} {data : FuzzyData K} {name : String} {lo hi : K}
    (h : SystemFor s.rules data name lo hi) :
    ∃ u, s.applyRules data = .ok u ∧ u.dims = [(name, lo, hi)] ∧
      ∀ x, ∃ m, u.eval (onlyValue name x) = .ok m ∧ SuggestedDegree s.rules data name x m := by
  unfold FuzzySystem.applyRules
  cases hr : s.rules with
  | nil => exact absurd hr h.some_rule
  | cons r rs =>
    rw [hr] at h
    obtain ⟨a, hra⟩ := h.input r (by simp)
    have hrd := h.output r (by simp)
    have happ : r.apply data = .ok (.cut a r.consequent) := by simp [FuzzyRule.apply, hra, Outcome.bind]
    simp only [happ]
    have := applyRules_spec rs (fun r hr => h.output r (by simp [hr])) (fun r hr => h.input r (by simp [hr])) [r]
      (.cut a r.consequent) (by simp [FuzzySet.dims, hrd]) (by
        intro x
        obtain ⟨c, hc⟩ := eval_onlyValue name x r.consequent (by rw [hrd]; simp)
        refine ⟨min a c, by simp [FuzzySet.eval, hc, Outcome.bind], ⟨r, by simp, a, c, hra, hc, rfl⟩, ?_⟩
        rintro d ⟨r', hr', a', c', h1, h2, rfl⟩
        rw [List.mem_singleton] at hr'
        subst hr'
        rw [hra] at h1; rw [hc] at h2
        cases h1; cases h2
        exact le_refl _)
    simpa using this

omit [IsStrictOrderedRing K] in
theorem evalAt_spec [HasExp K] {u : FuzzySet K} {name : String} {μ : K → K} (h : ∀ x, u.eval (onlyValue name x) = .ok (μ x)) :
    ∀ xs : List K, u.evalAt name xs = .ok (xs.map fun x => (x, μ x)) := by
  intro xs
  induction xs with
  | nil => rfl
  | cons x xs ih =>
    have := h x
    unfold onlyValue at this
    simp [FuzzySet.evalAt, this, ih, Outcome.bind]

/-- The loop visits the evenly spaced points. -/
theorem sampleLoop_even {step lo hi : K} {m : Nat} (hs : 0 < step) (hhi : hi = lo + (m : K) * step) :
    ∀ (k i : Nat), i + k = m + 1 → ∀ extra, sampleLoop step hi (k + 1 + extra) (lo + (i : K) * step) =
      some ((List.range' i k).map fun j : Nat => lo + (j : K) * step) := by
  intro k
  induction k with
  | zero =>
    intro i hi' extra
    have : i = m + 1 := by omega
    subst this
    rw [show 0 + 1 + extra = extra + 1 by omega, sampleLoop, if_neg]
    · rfl
    · rw [not_le, hhi]
      push_cast
      nlinarith
  | succ k ih =>
    intro i hi' extra
    have hle : i ≤ m := by omega
    rw [show k + 1 + 1 + extra = (k + 1 + extra) + 1 by omega, sampleLoop, if_pos]
    · have := ih (i + 1) (by omega) extra
      rw [show lo + (i : K) * step + step = lo + ((i + 1 : Nat) : K) * step by push_cast; ring, this]
      simp [List.range'_succ]
    · rw [hhi]
      have : (i : K) ≤ (m : K) := by exact_mod_cast hle
      nlinarith

theorem samplePoints_even {n : Nat} (hn : 2 ≤ n) {lo hi : K} (h : lo < hi) :
    samplePoints n lo hi = .ok ((List.range n).map (evenPoint n lo hi)) := by
  unfold samplePoints
  rw [if_neg (by omega)]
  have hp : sizePred n = n - 1 := by unfold sizePred; rw [if_neg (by omega)]
  have hc : ((n - 1 : Nat) : K) = (n : K) - 1 := by
    rw [Nat.cast_sub (by omega)]; simp
  have hpos : (0 : K) < (n : K) - 1 := by
    rw [← hc]; exact_mod_cast (show 0 < n - 1 by omega)
  rw [hp, hc]
  have := sampleLoop_even (step := (hi - lo) / ((n : K) - 1)) (lo := lo) (hi := hi) (m := n - 1)
    (div_pos (by linarith) hpos) (by rw [hc]; field_simp; ring) n 0 (by omega) 0
  rw [show n - 1 + 2 = n + 1 + 0 by omega]
  rw [Nat.cast_zero, zero_mul, add_zero lo] at this
  rw [this, ← List.range_eq_range']
  rfl

theorem evenPoint_range {n : Nat} (hn : 2 ≤ n) {lo hi : K} (h : lo ≤ hi) {i : Nat} (hi' : i < n) :
    lo ≤ evenPoint n lo hi i ∧ evenPoint n lo hi i ≤ hi := by
  unfold evenPoint
  have hpos : (0 : K) < (n : K) - 1 := by
    have : (1 : K) < (n : K) := by exact_mod_cast (show 1 < n by omega)
    linarith
  have h1 : (i : K) ≤ (n : K) - 1 := by
    have : (i : K) + 1 ≤ (n : K) := by exact_mod_cast (show i + 1 ≤ n by omega)
    linarith
  have h0 : (0 : K) ≤ (i : K) := by exact_mod_cast Nat.zero_le i
  have h2 : 0 ≤ (hi - lo) / ((n : K) - 1) := div_nonneg (by linarith) hpos.le
  constructor
  · nlinarith
  · have h3 : (i : K) * ((hi - lo) / ((n : K) - 1)) ≤ ((n : K) - 1) * ((hi - lo) / ((n : K) - 1)) :=
      mul_le_mul_of_nonneg_right h1 h2
    rw [mul_div_cancel₀ _ hpos.ne'] at h3
    linarith

omit [LinearOrder K] [IsStrictOrderedRing K] in
theorem cog_fold : ∀ (ps : List (K × K)) (a b : K),
    ps.foldl (fun acc p => (acc.1 + p.1 * p.2, acc.2 + p.2)) (a, b) =
      (a + (ps.map fun p => p.1 * p.2).sum, b + (ps.map fun p => p.2).sum) := by
  intro ps
  induction ps with
  | nil => intro a b; simp
  | cons p ps ih =>
    intro a b
    rw [List.foldl_cons, ih]
    simp [add_assoc]

/-- Center of gravity of the samples. -/
theorem cogOf_spec (n : Nat) (x μ : Nat → K) :
    cogOf ((List.range n).map fun i => (x i, μ i)) =
      if ∑ i ∈ Finset.range n, μ i = 0 then 0 else (∑ i ∈ Finset.range n, x i * μ i) / ∑ i ∈ Finset.range n, μ i := by
  unfold cogOf
  rw [cog_fold]
  simp only [List.map_map, zero_add]
  rfl

/-- A weighted mean stays in the range. -/
theorem weighted_mean {n : Nat} {x μ : Nat → K} {lo hi : K} (hx : ∀ i < n, lo ≤ x i ∧ x i ≤ hi) (hμ : ∀ i < n, 0 ≤ μ i)
    (hs : ∑ i ∈ Finset.range n, μ i ≠ 0) :
    lo ≤ (∑ i ∈ Finset.range n, x i * μ i) / ∑ i ∈ Finset.range n, μ i ∧
      (∑ i ∈ Finset.range n, x i * μ i) / ∑ i ∈ Finset.range n, μ i ≤ hi := by
  have hpos : 0 < ∑ i ∈ Finset.range n, μ i :=
    lt_of_le_of_ne (Finset.sum_nonneg fun i hi => hμ i (Finset.mem_range.1 hi)) (Ne.symm hs)
  rw [le_div_iff₀ hpos, div_le_iff₀ hpos, Finset.mul_sum, Finset.mul_sum]
  constructor
  · apply Finset.sum_le_sum
    intro i hi
    rw [Finset.mem_range] at hi
    exact mul_le_mul_of_nonneg_right (hx i hi).1 (hμ i hi)
  · apply Finset.sum_le_sum
    intro i hi
    rw [Finset.mem_range] at hi
    exact mul_le_mul_of_nonneg_right (hx i hi).2 (hμ i hi)

/-- All values kept by `meanOfMaximum` are samples. -/
theorem mom_subset : ∀ (ps : List (K × K)) (acc : K × List K) (P : K → Prop), (∀ y ∈ acc.2, P y) → (∀ p ∈ ps, P p.1) →
    ∀ y ∈ (ps.foldl momStep acc).2, P y := by
  intro ps
  induction ps with
  | nil => intro acc P h _; simpa using h
  | cons p ps ih =>
    intro acc P h hp
    rw [List.foldl_cons]
    apply ih _ P _ (fun q hq => hp q (by simp [hq]))
    have h1 : ∀ y ∈ (if p.2 > acc.1 then ((p.2, []) : K × List K) else acc).2, P y := by
      split_ifs
      · simp
      · exact h
    intro y hy
    unfold momStep at hy
    dsimp only at hy
    generalize (if p.2 > acc.1 then ((p.2, []) : K × List K) else acc) = acc' at hy h1
    split_ifs at hy
    · simp only [List.mem_append, List.mem_singleton] at hy
      rcases hy with hy | rfl
      · exact h1 y hy
      · exact hp p (by simp)
    · exact h1 y hy

theorem near_self (a : K) (ha : 0 ≤ a) : nearRel a a momTolerance = true := by
  unfold nearRel
  simp only [sub_self, abs_zero, max_self, decide_eq_true_eq]
  unfold momTolerance
  positivity

/-- With degrees that are either the largest or clearly below it, `meanOfMaximum` keeps exactly the samples with the largest
degree. -/
theorem mom_kept {M : K} : ∀ (ps : List (K × K)) (acc : K × List K), 0 ≤ acc.1 → acc.1 ≤ M →
    (∀ p ∈ ps, 0 ≤ p.2 ∧ p.2 ≤ M) → (∀ p ∈ ps, p.2 = M ∨ nearRel p.2 M momTolerance = false) →
    (acc.1 = M ∨ ∃ p ∈ ps, p.2 = M) →
    (ps.foldl momStep acc).2 = (if acc.1 = M then acc.2 else []) ++ (ps.filter fun p => p.2 = M).map (·.1) := by
  intro ps
  induction ps with
  | nil =>
    intro acc _ _ _ _ h
    rcases h with h | ⟨p, hp, -⟩
    · simp [h]
    · simp at hp
  | cons p ps ih =>
    intro acc h0 hle hr hgap hex
    obtain ⟨hp0, hpM⟩ := hr p (by simp)
    have hr' := fun q hq => hr q (List.mem_cons_of_mem p hq)
    have hg' := fun q hq => hgap q (List.mem_cons_of_mem p hq)
    rw [List.foldl_cons]
    by_cases hpm : p.2 = M
    · -- a largest degree
      have hstep : momStep acc p = (M, (if acc.1 = M then acc.2 else []) ++ [p.1]) := by
        unfold momStep
        simp only [hpm]
        by_cases ha : acc.1 = M
        · simp [ha, near_self M (by rw [← hpm]; exact hp0)]
        · have : acc.1 < M := lt_of_le_of_ne hle ha
          simp [this, ha, near_self M (by rw [← hpm]; exact hp0)]
      rw [hstep, ih _ (by rw [← hpm]; exact hp0) le_rfl hr' hg' (.inl rfl)]
      simp [hpm]
    · have hlt : p.2 < M := lt_of_le_of_ne hpM hpm
      have hnear := (hgap p (by simp)).resolve_left hpm
      by_cases ha : acc.1 = M
      · have hstep : momStep acc p = acc := by
          unfold momStep
          have : ¬ p.2 > acc.1 := by rw [ha]; exact not_lt.2 hpM
          simp only [this, if_false]
          rw [ha, hnear]
          rfl
        rw [hstep, ih acc h0 hle hr' hg' (.inl ha)]
        simp [hpm]
      · have halt : acc.1 < M := lt_of_le_of_ne hle ha
        have hb : ∃ q ∈ ps, q.2 = M := by
          rcases hex with h | ⟨q, hq, hqm⟩
          · exact absurd h ha
          · rw [List.mem_cons] at hq
            rcases hq with rfl | hq
            · exact absurd hqm hpm
            · exact ⟨q, hq, hqm⟩
        have h1 : 0 ≤ (momStep acc p).1 ∧ (momStep acc p).1 < M := by
          unfold momStep
          simp only
          split_ifs <;> simp_all
        rw [ih _ h1.1 h1.2.le hr' hg' (.inr hb), if_neg h1.2.ne, if_neg ha]
        simp [hpm]

theorem list_mean {lo hi : K} (xs : List K) (h : ∀ x ∈ xs, lo ≤ x ∧ x ≤ hi) (hne : xs ≠ []) :
    lo ≤ xs.sum / (xs.length : K) ∧ xs.sum / (xs.length : K) ≤ hi := by
  have hpos : (0 : K) < (xs.length : K) := by
    exact_mod_cast List.length_pos_iff.2 hne
  have key : ∀ l : List K, (∀ x ∈ l, lo ≤ x ∧ x ≤ hi) → lo * (l.length : K) ≤ l.sum ∧ l.sum ≤ hi * (l.length : K) := by
    intro l
    induction l with
    | nil => intro _; simp
    | cons x l ih =>
      intro h
      obtain ⟨i1, i2⟩ := ih fun y hy => h y (by simp [hy])
      obtain ⟨j1, j2⟩ := h x (by simp)
      simp only [List.length_cons, List.sum_cons]
      push_cast
      constructor <;> nlinarith
  obtain ⟨k1, k2⟩ := key xs h
  exact ⟨(le_div_iff₀ hpos).2 k1, (div_le_iff₀ hpos).2 k2⟩

/-- After the first sample `meanOfMaximum` has kept something. -/
theorem mom_nonempty : ∀ (ps : List (K × K)) (acc : K × List K), (∀ p ∈ ps, 0 ≤ p.2) → 0 ≤ acc.1 →
    (acc.2 ≠ [] ∨ (acc.1 = 0 ∧ ps ≠ [])) → (ps.foldl momStep acc).2 ≠ [] := by
  intro ps
  induction ps with
  | nil => intro acc _ _ h; rcases h with h | h <;> simp_all
  | cons p ps ih =>
    intro acc hp h0 h
    rw [List.foldl_cons]
    have hpn := hp p (by simp)
    apply ih _ (fun q hq => hp q (by simp [hq]))
    · unfold momStep
      simp only
      split_ifs <;> simp_all
    · left
      unfold momStep
      simp only
      by_cases hgt : p.2 > acc.1
      · simp [hgt, near_self p.2 hpn]
      · simp only [hgt, if_false]
        rcases h with h | ⟨h, -⟩
        · split_ifs <;> simp_all
        · have : p.2 = 0 := le_antisymm (by rw [← h]; exact not_lt.1 hgt) hpn
          rw [this, h]
          simp [near_self (0 : K) le_rfl]

end

end Verif
