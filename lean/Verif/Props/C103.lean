import Mathlib.Tactic.NormNum
import Mathlib.Tactic.IntervalCases
import Verif.Lemmas.FuzzyTuning
/-!
# C103 — Fuzzy tuning

* `C103_degree`, `C103_boolean`: degrees of membership are between 0 and 1 for all parameters, and in clear cases the fuzzy
  operators are the classical ones. `C103_triangle`, `C103_trapezoid`, `C103_sigmoidFinite`: the shapes of the membership
  functions. **Violation** `C103_violated_shoulder`: a trapezoid that begins with its plateau is 0 at its begin.
* `C103_center_of_gravity`, `C103_mean_of_maximum`: what a system predicts. `C103_center_in_range`, `C103_maximum_in_range`: the
  prediction is in the range of the output — with the center of gravity only if some rule fires
  (**violation** `C103_violated_no_rule_fires`). `C103_rule_order`: the order of the rules does not matter.
  **Violation** `C103_violated_point_range`: an output variable whose range is a single value makes the prediction loop forever.
* `C103_closest`, `C103_patterns_partial`: the configurations a prediction stands for. **Violation**
  `C103_violated_cell_size_factor`: cell size factors in a pattern are ignored.
* `C103_suitability`: the patterns with a suitability within the threshold of the best one are selected; **violation**
  `C103_violated_negative_suitability`: none at all if the best suitability is negative.
* `C103_reset`, `C103_tested_partial`: what is tested in each tuning phase, side conditions as in C37.
-/
namespace Verif
open Spec

section
variable {K : Type} [Field K] [LinearOrder K] [IsStrictOrderedRing K] [HasExp K]

/-- Whatever is composed from terms with `||`, `&&` and `!` has a degree between 0 and 1, for all parameters of the membership
functions and all data. -/
theorem C103_degree {s : FuzzySet K} (hs : ProperSet s) {data : FuzzyData K} {d : K} (h : s.eval data = .ok d) : 0 ≤ d ∧ d ≤ 1 :=
  set_unit s hs h

/-- If all terms are clear cases, the degree is 1 or 0, as the classical statement holds or not. -/
theorem C103_boolean {val : String → K} : ∀ {s : FuzzySet K}, ClearCase val s →
    (Holds val s ∧ s.eval (fun d => some (val d)) = .ok 1) ∨ (¬ Holds val s ∧ s.eval (fun d => some (val d)) = .ok 0) := by
  intro s
  induction s with
  | base dim lo hi f =>
    intro h
    rcases h with h | h
    · right
      refine ⟨?_, by simp [FuzzySet.eval, h]⟩
      show f.eval (val dim) ≠ 1
      rw [h]; exact zero_ne_one
    · left; exact ⟨h, by simp [FuzzySet.eval, h]⟩
  | or a b iha ihb =>
    intro h
    rcases iha h.1 with ⟨h1, h2⟩ | ⟨h1, h2⟩ <;> rcases ihb h.2 with ⟨h3, h4⟩ | ⟨h3, h4⟩ <;>
      simp [Holds, FuzzySet.eval, Outcome.bind, h1, h2, h3, h4]
  | and a b iha ihb =>
    intro h
    rcases iha h.1 with ⟨h1, h2⟩ | ⟨h1, h2⟩ <;> rcases ihb h.2 with ⟨h3, h4⟩ | ⟨h3, h4⟩ <;>
      simp [Holds, FuzzySet.eval, Outcome.bind, h1, h2, h3, h4]
  | not a ih =>
    intro h
    rcases ih h with ⟨h1, h2⟩ | ⟨h1, h2⟩ <;> simp [Holds, FuzzySet.eval, Outcome.bind, h1, h2]
  | cut c a => intro h; exact h.elim

/-- A trapezoid with strict slopes. -/
theorem C103_trapezoid {lo l r hi : K} (h1 : lo < l) (h2 : l ≤ r) (h3 : r < hi) :
    Peaked (MembershipFn.trapezoid lo l r hi).eval lo l r hi := by
  have hu := fun x => fn_unit (MembershipFn.trapezoid lo l r hi) x
  have hone : ∀ x, l ≤ x → x ≤ r → (MembershipFn.trapezoid lo l r hi).eval x = 1 := by
    intro x hx hx'
    have c1 : ¬ (x ≤ lo ∨ hi ≤ x) := by rw [not_or, not_le, not_le]; constructor <;> linarith
    simp only [MembershipFn.eval, if_neg c1]
    split_ifs with c2
    · have : x = l := le_antisymm c2 hx
      rw [this]; exact div_self (by linarith)
    · rfl
  refine ⟨?_, ?_, hone, ?_, ?_⟩
  · intro x hx; simp [MembershipFn.eval, hx]
  · intro x hx; simp [MembershipFn.eval, hx]
  · intro x y hxy hy
    rcases le_total l y with hl | hl
    · rw [hone y hl hy]; exact (hu x).2
    · by_cases cx : x ≤ lo
      · have : (MembershipFn.trapezoid lo l r hi).eval x = 0 := by simp [MembershipFn.eval, cx]
        rw [this]; exact (hu y).1
      · rw [not_le] at cx
        have c1 : ¬ (x ≤ lo ∨ hi ≤ x) := by rw [not_or, not_le, not_le]; constructor <;> linarith
        have c2 : ¬ (y ≤ lo ∨ hi ≤ y) := by rw [not_or, not_le, not_le]; constructor <;> linarith
        simp only [MembershipFn.eval, if_neg c1, if_neg c2, if_pos hl, if_pos (hxy.trans hl)]
        exact div_le_div_of_nonneg_right (by linarith) (by linarith)
  · intro x y hx hxy
    rcases le_total x r with hr | hr
    · rw [hone x hx hr]; exact (hu y).2
    · by_cases cy : hi ≤ y
      · have : (MembershipFn.trapezoid lo l r hi).eval y = 0 := by simp [MembershipFn.eval, cy]
        rw [this]; exact (hu x).1
      · rw [not_le] at cy
        rcases eq_or_lt_of_le hr with he | hlt
        · rw [hone x hx (he ▸ le_refl _)]; exact (hu y).2
        · have c1 : ¬ (x ≤ lo ∨ hi ≤ x) := by rw [not_or, not_le, not_le]; constructor <;> linarith
          have c2 : ¬ (y ≤ lo ∨ hi ≤ y) := by rw [not_or, not_le, not_le]; constructor <;> linarith
          have d1 : ¬ x ≤ l := by rw [not_le]; linarith
          have d2 : ¬ y ≤ l := by rw [not_le]; linarith
          have e1 : ¬ x ≤ r := not_le.2 hlt
          have e2 : ¬ y ≤ r := by rw [not_le]; linarith
          simp only [MembershipFn.eval, if_neg c1, if_neg c2, if_neg d1, if_neg d2, if_neg e1, if_neg e2]
          exact div_le_div_of_nonneg_right (by linarith) (by linarith)

/-- A triangle is a trapezoid whose plateau is one point. -/
theorem C103_triangle {lo p hi : K} (h1 : lo < p) (h2 : p < hi) : Peaked (MembershipFn.triangle lo p hi).eval lo p p hi := by
  have h := C103_trapezoid h1 (le_refl p) h2
  have he : (MembershipFn.triangle lo p hi).eval = (MembershipFn.trapezoid lo p p hi).eval := by
    funext x
    simp only [MembershipFn.eval]
    split_ifs <;> rfl
  rw [he]; exact h

/-- A finite sigmoid rises from 0 at `lower` over 1/2 at `center` to 1 at `upper`; with the bounds swapped it is the
complement: "lower than" is the negation of "higher than". -/
theorem C103_sigmoidFinite {l c u : K} (h1 : l < c) (h2 : c < u) :
    (∀ x ≤ l, (MembershipFn.sigmoidFinite l c u).eval x = 0) ∧
    (MembershipFn.sigmoidFinite l c u).eval c = 1 / 2 ∧
    (∀ x, u ≤ x → (MembershipFn.sigmoidFinite l c u).eval x = 1) ∧
    (∀ x y, x ≤ y → (MembershipFn.sigmoidFinite l c u).eval x ≤ (MembershipFn.sigmoidFinite l c u).eval y) ∧
    ∀ x, (MembershipFn.sigmoidFinite u c l).eval x = 1 - (MembershipFn.sigmoidFinite l c u).eval x := by
  have hrev : ¬ l > u := not_lt.2 (h1.trans h2).le
  have hev : ∀ x, (MembershipFn.sigmoidFinite l c u).eval x = sShape x l c u := by
    intro x; simp only [MembershipFn.eval, if_neg hrev]
  have hleft : ∀ x ≤ l, sShape x l c u = 0 := by intro x hx; simp [sShape, hx]
  have hcl : (0 : K) < c - l := by linarith
  have huc : (0 : K) < u - c := by linarith
  have hmid1 : ∀ x, l < x → x ≤ c → sShape x l c u = 1 / 2 * ((x - l) / (c - l)) ^ 2 := by
    intro x hx hx'
    simp only [sShape, if_neg (not_le.2 hx), if_pos (And.intro hx.le hx')]
  have hmid2 : ∀ x, c < x → x ≤ u → sShape x l c u = 1 - 1 / 2 * ((u - x) / (u - c)) ^ 2 := by
    intro x hx hx'
    have he : (x - u) / (c - u) = (u - x) / (u - c) := by rw [← neg_sub u x, ← neg_sub u c, neg_div_neg_eq]
    simp only [sShape, if_neg (not_le.2 (h1.trans hx)), if_neg (show ¬ (l ≤ x ∧ x ≤ c) from fun h => absurd h.2 (not_le.2 hx)),
      if_pos (And.intro hx.le hx'), he]
  have hright : ∀ x, u ≤ x → sShape x l c u = 1 := by
    intro x hx
    rcases eq_or_lt_of_le hx with he | hlt
    · rw [← he, hmid2 u h2 le_rfl]; simp
    · simp only [sShape, if_neg (not_le.2 ((h1.trans h2).trans hlt)),
        if_neg (show ¬ (l ≤ x ∧ x ≤ c) from fun h => absurd h.2 (not_le.2 (h2.trans hlt))),
        if_neg (show ¬ (c ≤ x ∧ x ≤ u) from fun h => absurd h.2 (not_le.2 hlt))]
  have hcen : sShape c l c u = 1 / 2 := by
    rw [hmid1 c h1 le_rfl, div_self hcl.ne']; simp
  have hlow : ∀ x ≤ c, sShape x l c u ≤ 1 / 2 := by
    intro x hx
    rcases le_or_gt x l with h | h
    · rw [hleft x h]; norm_num
    · rw [hmid1 x h hx]
      have := (sq_unit (div_unit (a := x - l) (b := c - l) (by linarith) (by linarith) hcl)).2
      linarith
  have hhigh : ∀ x, c ≤ x → 1 / 2 ≤ sShape x l c u := by
    intro x hx
    rcases eq_or_lt_of_le hx with he | hlt
    · rw [← he, hcen]
    · rcases le_or_gt x u with h | h
      · rw [hmid2 x hlt h]
        have := (sq_unit (div_unit (a := u - x) (b := u - c) (by linarith) (by linarith) huc)).2
        linarith
      · rw [hright x h.le]; norm_num
  refine ⟨fun x hx => by rw [hev]; exact hleft x hx, by rw [hev]; exact hcen, fun x hx => by rw [hev]; exact hright x hx, ?_, ?_⟩
  · intro x y hxy
    rw [hev, hev]
    rcases le_or_gt y c with hy | hy
    · rcases le_or_gt x l with hx | hx
      · rw [hleft x hx]; exact sShape_unit.1
      · rw [hmid1 x hx (hxy.trans hy), hmid1 y (lt_of_lt_of_le hx hxy) hy]
        have hd : (x - l) / (c - l) ≤ (y - l) / (c - l) := div_le_div_of_nonneg_right (by linarith) hcl.le
        have h0 : 0 ≤ (x - l) / (c - l) := div_nonneg (by linarith) hcl.le
        have := pow_le_pow_left₀ h0 hd 2
        linarith
    · rcases le_or_gt x c with hx | hx
      · exact (hlow x hx).trans (hhigh y hy.le)
      · rcases le_or_gt u y with hu | hu
        · rw [hright y hu]; exact sShape_unit.2
        · rw [hmid2 x hx (hxy.trans hu.le), hmid2 y hy hu.le]
          have hd : (u - y) / (u - c) ≤ (u - x) / (u - c) := div_le_div_of_nonneg_right (by linarith) huc.le
          have h0 : 0 ≤ (u - y) / (u - c) := div_nonneg (by linarith) huc.le
          have := pow_le_pow_left₀ h0 hd 2
          linarith
  · intro x
    rw [hev]
    simp only [MembershipFn.eval, if_pos (h1.trans h2)]

/-- A trapezoid whose left slope is vertical should be 1 on its plateau, but is 0 at the begin of it. -/
theorem C103_violated_shoulder {l r hi : K} (_h2 : l ≤ r) (_h3 : r < hi) : (MembershipFn.trapezoid l l r hi).eval l = 0 := by
  simp [MembershipFn.eval]

variable {s : FuzzySystem K} {data : FuzzyData K} {name : String} {lo hi : K} {settings : FuzzySettings K} {n : Nat} {μ : Nat → K}

/-- **Center of gravity.** Let `μ i` be the degree to which the rules suggest the `i`-th of `n` evenly spaced values of the output
range. The prediction is the mean of these values, weighted with their degrees; 0 if no degree is positive. -/
theorem C103_center_of_gravity (h : SystemFor s.rules data name lo hi) (hlt : lo < hi)
    (hm : settings.method = some .centerOfGravity) (hn : settings.numSamples.getD 1000 = n) (h2 : 2 ≤ n)
    (hμ : ∀ i < n, SuggestedDegree s.rules data name (evenPoint n lo hi i) (μ i)) :
    s.predict settings data = .ok
      (if ∑ i ∈ Finset.range n, μ i = 0 then 0
        else (∑ i ∈ Finset.range n, evenPoint n lo hi i * μ i) / ∑ i ∈ Finset.range n, μ i) := by
  rw [predict_samples h hlt hm hn h2 hμ]
  simp only [cogOf_spec]

/-- A way to interpret the output that the strategy does not know, or none at all, is refused; the queue is not touched. -/
theorem C103_unknown_interpretation (f : FuzzyTuner K) (h1 : f.settings.interpretOutputAs ≠ some "IndividualSystems")
    (h2 : f.settings.interpretOutputAs ≠ some "Suitability") (queue : List (Configuration Rat)) : f.reset data queue = .throws := by
  have hs : f.select data = .throws := by
    unfold FuzzyTuner.select
    split
    · rfl
    · rename_i i hi
      rw [if_neg (fun hc => h1 (by rw [hi, hc])), if_neg (fun hc => h2 (by rw [hi, hc]))]
  unfold FuzzyTuner.reset
  rw [hs]; rfl

/-- If some rule suggests one of the values, the prediction is in the range. -/
theorem C103_center_in_range (h : SystemFor s.rules data name lo hi) (hlt : lo < hi)
    (hm : settings.method = some .centerOfGravity) (hn : settings.numSamples.getD 1000 = n) (h2 : 2 ≤ n)
    (hfire : ∃ i < n, ∃ r ∈ s.rules, ∃ a c, r.antecedent.eval data = .ok a ∧
      r.consequent.eval (onlyValue name (evenPoint n lo hi i)) = .ok c ∧ 0 < a ∧ 0 < c) :
    ∃ y, s.predict settings data = .ok y ∧ lo ≤ y ∧ y ≤ hi := by
  choose f hf using fun x => suggested_exists h x
  have hμ : ∀ i < n, SuggestedDegree s.rules data name (evenPoint n lo hi i) (f (evenPoint n lo hi i)) := fun i _ => hf _
  have hpos : 0 < ∑ i ∈ Finset.range n, f (evenPoint n lo hi i) := by
    obtain ⟨i, hi', r, hr, a, c, ha, hc, h0a, h0c⟩ := hfire
    apply Finset.sum_pos' (fun i _ => (suggested_unit h (hf _)).1)
    exact ⟨i, Finset.mem_range.2 hi', lt_of_lt_of_le (lt_min h0a h0c) ((hf _).2 ⟨r, hr, a, c, ha, hc, rfl⟩)⟩
  refine ⟨_, C103_center_of_gravity h hlt hm hn h2 hμ, ?_⟩
  rw [if_neg hpos.ne']
  exact weighted_mean (fun i hi' => evenPoint_range h2 hlt.le hi') (fun i hi' => (suggested_unit h (hf _)).1) hpos.ne'

/-- If no rule fires at all, the center of gravity is 0 — even if 0 is not in the range of the output. -/
theorem C103_violated_no_rule_fires (h : SystemFor s.rules data name lo hi) (hlt : lo < hi)
    (hm : settings.method = some .centerOfGravity) (h2 : 2 ≤ settings.numSamples.getD 1000) (h0 : 0 < lo)
    (hno : ∀ r ∈ s.rules, r.antecedent.eval data = .ok 0) :
    ∃ y, s.predict settings data = .ok y ∧ ¬ (lo ≤ y ∧ y ≤ hi) := by
  refine ⟨0, ?_, fun hc => absurd hc.1 (not_le.2 h0)⟩
  rw [C103_center_of_gravity (μ := fun _ => 0) h hlt hm rfl h2]
  · simp
  · intro i _
    obtain ⟨m, hm'⟩ := suggested_exists h (evenPoint (settings.numSamples.getD 1000) lo hi i)
    have : m = 0 := by
      obtain ⟨r, hr, a, c, ha, hc, he⟩ := hm'.1
      rw [hno r hr] at ha
      cases ha
      have := (set_unit _ (h.proper r hr).2 hc).1
      rw [he, min_eq_left this]
    rw [← this]; exact hm'

/-- **Mean of maximum.** If the degrees are either the largest one `M` or differ from it by more than the tolerance, the prediction
is the mean of the values with the largest degree. -/
theorem C103_mean_of_maximum (h : SystemFor s.rules data name lo hi) (hlt : lo < hi)
    (hm : settings.method = some .meanOfMaximum) (hn : settings.numSamples.getD 1000 = n) (h2 : 2 ≤ n)
    (hμ : ∀ i < n, SuggestedDegree s.rules data name (evenPoint n lo hi i) (μ i))
    {M : K} (hM : IsGreatest {d | ∃ i < n, d = μ i} M) (hgap : ∀ i < n, μ i = M ∨ M * (1 / 100000) < M - μ i) :
    s.predict settings data = .ok
      ((∑ i ∈ (Finset.range n).filter (fun i => μ i = M), evenPoint n lo hi i) /
        (((Finset.range n).filter (fun i => μ i = M)).card : K)) := by
  rw [predict_samples h hlt hm hn h2 hμ]
  have hunit : ∀ i < n, 0 ≤ μ i ∧ μ i ≤ 1 := fun i hi' => suggested_unit h (hμ i hi')
  have hle : ∀ i < n, μ i ≤ M := fun i hi' => hM.2 ⟨i, hi', rfl⟩
  obtain ⟨i0, hi0, he0⟩ := hM.1
  have hM0 : 0 ≤ M := by rw [he0]; exact (hunit i0 hi0).1
  have hkept := mom_kept (M := M) ((List.range n).map fun i => (evenPoint n lo hi i, μ i)) (0, []) le_rfl hM0 (by
      intro p hp
      rw [List.mem_map] at hp
      obtain ⟨i, hi', rfl⟩ := hp
      rw [List.mem_range] at hi'
      exact ⟨(hunit i hi').1, hle i hi'⟩) (by
      intro p hp
      rw [List.mem_map] at hp
      obtain ⟨i, hi', rfl⟩ := hp
      rw [List.mem_range] at hi'
      refine (hgap i hi').imp id fun hg => ?_
      unfold nearRel momTolerance
      rw [decide_eq_false_iff_not, not_le]
      have h0 := (hunit i hi').1
      have h1 := hle i hi'
      rw [abs_of_nonneg h0, abs_of_nonneg hM0, max_eq_right h1, abs_sub_comm, abs_of_nonneg (by linarith)]
      linarith) (.inr ⟨(evenPoint n lo hi i0, μ i0), List.mem_map.2 ⟨i0, List.mem_range.2 hi0, rfl⟩, he0.symm⟩)
  simp only [momOf]
  rw [hkept]
  have hl : (List.map (fun p : K × K => p.1) (List.filter (fun p => decide (p.2 = M))
      (List.map (fun i => (evenPoint n lo hi i, μ i)) (List.range n)))) =
      ((List.range n).filter (fun i => μ i = M)).map (evenPoint n lo hi) := by
    rw [List.filter_map, List.map_map]
    rfl
  have hacc : (if (0 : K) = M then ([] : List K) else []) = [] := by split_ifs <;> rfl
  rw [hacc, List.nil_append, hl]
  have hne : ((List.range n).filter (fun i => μ i = M)).map (evenPoint n lo hi) ≠ [] := by
    intro hc
    rw [List.map_eq_nil_iff, List.filter_eq_nil_iff] at hc
    exact hc i0 (List.mem_range.2 hi0) (by simpa using he0.symm)
  have hemp : (((List.range n).filter (fun i => μ i = M)).map (evenPoint n lo hi)).isEmpty = false := by
    rw [List.isEmpty_eq_false_iff]; exact hne
  rw [hemp, List.length_map]
  rfl

/-- The mean of maximum is in the range, in any case. -/
theorem C103_maximum_in_range (h : SystemFor s.rules data name lo hi) (hlt : lo < hi)
    (hm : settings.method = some .meanOfMaximum) (hn : settings.numSamples.getD 1000 = n) (h2 : 2 ≤ n) :
    ∃ y, s.predict settings data = .ok y ∧ lo ≤ y ∧ y ≤ hi := by
  choose f hf using fun x => suggested_exists h x
  have hμ : ∀ i < n, SuggestedDegree s.rules data name (evenPoint n lo hi i) (f (evenPoint n lo hi i)) := fun i _ => hf _
  refine ⟨_, predict_samples h hlt hm hn h2 hμ, ?_⟩
  simp only [momOf]
  have hne := mom_nonempty ((List.range n).map fun i => (evenPoint n lo hi i, f (evenPoint n lo hi i))) (0, []) (by
      intro p hp
      rw [List.mem_map] at hp
      obtain ⟨i, -, rfl⟩ := hp
      exact (suggested_unit h (hf _)).1) le_rfl (.inr ⟨rfl, by
        intro hc
        rw [List.map_eq_nil_iff, List.range_eq_nil] at hc
        omega⟩)
  have hemp := List.isEmpty_eq_false_iff.2 hne
  rw [hemp]
  simp only [Bool.false_eq_true, if_false]
  apply list_mean _ _ hne
  apply mom_subset _ _ (fun x => lo ≤ x ∧ x ≤ hi) (by simp)
  intro p hp
  rw [List.mem_map] at hp
  obtain ⟨i, hi', rfl⟩ := hp
  exact evenPoint_range h2 hlt.le (List.mem_range.1 hi')

/-- The prediction does not depend on the order of the rules, nor on how often a rule is given. -/
theorem C103_rule_order {s' : FuzzySystem K} (h : SystemFor s.rules data name lo hi) (hlt : lo < hi)
    (hr : ∀ r, r ∈ s.rules ↔ r ∈ s'.rules) {m : DefuzzMethod} (hm : settings.method = some m)
    (h2 : 2 ≤ settings.numSamples.getD 1000) : s.predict settings data = s'.predict settings data := by
  have h' : SystemFor s'.rules data name lo hi := by
    refine ⟨?_, fun r hr' => h.output r ((hr r).2 hr'), fun r hr' => h.input r ((hr r).2 hr'), fun r hr' => h.proper r ((hr r).2 hr')⟩
    intro hc
    obtain ⟨r, hr'⟩ := List.exists_mem_of_ne_nil _ h.some_rule
    have := (hr r).1 hr'
    rw [hc] at this
    simp at this
  choose f hf using fun x => suggested_exists h x
  have hf' : ∀ x, SuggestedDegree s'.rules data name x (f x) := by
    intro x
    have := hf x
    unfold SuggestedDegree at this ⊢
    simpa only [hr] using this
  rw [predict_samples (μ := fun i => f (evenPoint _ lo hi i)) h hlt hm rfl h2 (fun i _ => hf _),
    predict_samples (μ := fun i => f (evenPoint _ lo hi i)) h' hlt hm rfl h2 (fun i _ => hf' _)]

omit [HasExp K] in
/-- The loop over the range of an output variable whose range is one value never ends: whatever the number of samples (at least
two) and of rounds that one waits. -/
theorem C103_violated_point_range (lo : K) {n : Nat} (_hn : 2 ≤ n) (fuel : Nat) :
    sampleLoop ((lo - lo) / ((n : K) - 1)) lo fuel lo = none := by
  induction fuel with
  | zero => rfl
  | succ fuel ih =>
    have : lo + (lo - lo) / ((n : K) - 1) = lo := by simp
    rw [sampleLoop, if_pos le_rfl, this, ih]
    rfl

omit [HasExp K] [IsStrictOrderedRing K] in
/-- The patterns of the first one of the values that are closest to the prediction; an exception iff there are no values. -/
theorem C103_closest (m : OutputMapper K) (v : K) :
    (m = [] ∧ m.closest v = .throws) ∨ ∃ e, FirstClosest m v e ∧ m.closest v = .ok e.2 := by
  cases m with
  | nil => left; exact ⟨rfl, rfl⟩
  | cons e es =>
    right
    refine ⟨_, ?_, rfl⟩
    have := closest_fold v es [] [] e (by simp) (by simp)
    simpa using this

omit [HasExp K] in
/-- With a best suitability `B` that is not negative, exactly the patterns are selected whose suitability is at least
`B * (1 - threshold)`. -/
theorem C103_suitability {threshold B : K} (ht : 0 ≤ threshold) {es : List (CfgPattern × K)}
    (hB : IsGreatest {b | ∃ e ∈ es, b = e.2} B) (h0 : 0 ≤ B) :
    ∃ ps, suitablePatterns threshold es = .ok ps ∧ (∀ p, p ∈ ps ↔ ∃ b, (p, b) ∈ es ∧ B * (1 - threshold) ≤ b) ∧
      ∃ p, (p, B) ∈ es ∧ p ∈ ps := by
  obtain ⟨hs, hmem⟩ := suitabilitySort_spec es
  obtain ⟨e0, he0, hb0⟩ := hB.1
  unfold suitablePatterns
  cases hsort : suitabilitySort es with
  | nil =>
    rw [← hmem, hsort] at he0
    simp at he0
  | cons best rest =>
    rw [hsort] at hs hmem
    have hbest : best.2 = B := by
      apply le_antisymm (hB.2 ⟨best, (hmem best).1 (by simp), rfl⟩)
      rw [hb0]
      rw [List.pairwise_cons] at hs
      have := (hmem e0).2 he0
      rw [List.mem_cons] at this
      rcases this with h | h
      · rw [h]
      · exact hs.1 e0 h
    have key : ∀ p, p ∈ ((best :: rest).takeWhile fun e => !decide (e.2 < best.2 * (1 - threshold))).map (·.1) ↔
        ∃ b, (p, b) ∈ es ∧ B * (1 - threshold) ≤ b := by
      intro p
      rw [List.mem_map]
      constructor
      · rintro ⟨e, he, rfl⟩
        rw [takeWhile_desc hs, hmem, hbest] at he
        exact ⟨e.2, he.1, he.2⟩
      · rintro ⟨b, hb, hle⟩
        exact ⟨(p, b), (takeWhile_desc hs).2 ⟨(hmem _).2 hb, by rw [hbest]; exact hle⟩, rfl⟩
    refine ⟨_, rfl, key, best.1, ?_, ?_⟩
    · rw [← hbest]; exact (hmem best).1 (by simp)
    · rw [key]
      refine ⟨B, by rw [← hbest]; exact (hmem best).1 (by simp), ?_⟩
      nlinarith

omit [HasExp K] in
/-- With a negative best suitability nothing is selected, not even the best. -/
theorem C103_violated_negative_suitability {threshold B : K} (ht : 0 < threshold) {es : List (CfgPattern × K)}
    (hB : IsGreatest {b | ∃ e ∈ es, b = e.2} B) (h0 : B < 0) : suitablePatterns threshold es = .ok [] := by
  obtain ⟨hs, hmem⟩ := suitabilitySort_spec es
  obtain ⟨e0, he0, hb0⟩ := hB.1
  unfold suitablePatterns
  cases hsort : suitabilitySort es with
  | nil =>
    rw [← hmem, hsort] at he0
    simp at he0
  | cons best rest =>
    rw [hsort] at hs hmem
    have hle : best.2 ≤ B := hB.2 ⟨best, (hmem best).1 (by simp), rfl⟩
    have : best.2 < best.2 * (1 - threshold) := by nlinarith
    simp [List.takeWhile_cons, this]

end

theorem addEntries {es : List PatternEntry} : ∀ (p : CfgPattern) (c : Configuration Rat),
    (es.foldl CfgPattern.addEntry p).containers = p.containers ++ es.filterMap (fun | .container n => some n | _ => none) ∧
    (es.foldl CfgPattern.addEntry p).traversals = p.traversals ++ es.filterMap (fun | .traversal n => some n | _ => none) ∧
    (es.foldl CfgPattern.addEntry p).dataLayouts = p.dataLayouts ++ es.filterMap (fun | .dataLayout n => some n | _ => none) ∧
    (es.foldl CfgPattern.addEntry p).loadEstimators =
      p.loadEstimators ++ es.filterMap (fun | .loadEstimator n => some n | _ => none) ∧
    (es.foldl CfgPattern.addEntry p).newton3Options = p.newton3Options ++ es.filterMap (fun | .newton3 n => some n | _ => none) ∧
    (es.foldl CfgPattern.addEntry p).cellSizeFactors = p.cellSizeFactors := by
  induction es with
  | nil => intro p c; simp
  | cons e es ih =>
    intro p c
    rw [List.foldl_cons]
    obtain ⟨h1, h2, h3, h4, h5, h6⟩ := ih (p.addEntry e) c
    cases e <;> simp_all [CfgPattern.addEntry]

theorem meets_container {c : Configuration Rat} {n : Nat} {e : PatternEntry} (h : SameOption (.container n) e) (hm : Meets c e) :
    e = .container c.container := by
  cases e <;> simp_all [SameOption, Meets]

theorem meets_traversal {c : Configuration Rat} {n : Nat} {e : PatternEntry} (h : SameOption (.traversal n) e) (hm : Meets c e) :
    e = .traversal c.traversal := by
  cases e <;> simp_all [SameOption, Meets]

theorem meets_dataLayout {c : Configuration Rat} {n : Nat} {e : PatternEntry} (h : SameOption (.dataLayout n) e) (hm : Meets c e) :
    e = .dataLayout c.dataLayout := by
  cases e <;> simp_all [SameOption, Meets]

theorem meets_loadEstimator {c : Configuration Rat} {n : Nat} {e : PatternEntry} (h : SameOption (.loadEstimator n) e) (hm : Meets c e) :
    e = .loadEstimator c.loadEstimator := by
  cases e <;> simp_all [SameOption, Meets]

theorem meets_newton3 {c : Configuration Rat} {n : Nat} {e : PatternEntry} (h : SameOption (.newton3 n) e) (hm : Meets c e) :
    e = .newton3 c.newton3 := by
  cases e <;> simp_all [SameOption, Meets]

/-- A pattern without cell size factors is matched by the configurations that have, for each option in it, one of the given
values. Missing: patterns with a cell size factor, for which this is wrong. -/
theorem C103_patterns_partial {es : List PatternEntry} (hes : ∀ n, PatternEntry.cellSizeFactor n ∉ es) (c : Configuration Rat) :
    Matches (fuzzyPattern es) c ↔ MeetsAll es c := by
  obtain ⟨h1, h2, h3, h4, h5, h6⟩ := addEntries (es := es) ⟨[], [], [], [], [], []⟩ c
  have key : ∀ (mk : Nat → PatternEntry) (get : PatternEntry → Option Nat) (x : Nat),
      (∀ n, get (mk n) = some n) → (∀ e n, get e = some n → e = mk n) →
      ((es.filterMap get ≠ [] → x ∈ es.filterMap get) ↔ ∀ n, mk n ∈ es → mk x ∈ es) := by
    intro mk get x hg1 hg2
    have hm : ∀ n, n ∈ es.filterMap get ↔ mk n ∈ es := by
      intro n
      rw [List.mem_filterMap]
      constructor
      · rintro ⟨e, he, hn⟩; rw [← hg2 e n hn]; exact he
      · intro he; exact ⟨_, he, hg1 n⟩
    constructor
    · intro h n hn
      exact (hm x).1 (h (List.ne_nil_of_mem ((hm n).2 hn)))
    · intro h hne
      obtain ⟨n, hn⟩ := List.exists_mem_of_ne_nil _ hne
      exact (hm x).2 (h n ((hm n).1 hn))
  have k1 := key .container (fun | .container n => some n | _ => none) c.container (fun _ => rfl)
    (by intro e n; cases e <;> simp)
  have k2 := key .traversal (fun | .traversal n => some n | _ => none) c.traversal (fun _ => rfl)
    (by intro e n; cases e <;> simp)
  have k3 := key .dataLayout (fun | .dataLayout n => some n | _ => none) c.dataLayout (fun _ => rfl)
    (by intro e n; cases e <;> simp)
  have k4 := key .loadEstimator (fun | .loadEstimator n => some n | _ => none) c.loadEstimator (fun _ => rfl)
    (by intro e n; cases e <;> simp)
  have k5 := key .newton3 (fun | .newton3 n => some n | _ => none) c.newton3 (fun _ => rfl)
    (by intro e n; cases e <;> simp)
  rw [List.nil_append] at h1 h2 h3 h4 h5
  constructor
  · rintro ⟨m1, m2, m4, m3, m5, -⟩ e he
    unfold fuzzyPattern at m1 m2 m3 m4 m5
    rw [h1] at m1; rw [h2] at m2; rw [h3] at m3; rw [h4] at m4; rw [h5] at m5
    cases e with
    | container n => exact ⟨_, k1.1 m1 n he, trivial, rfl⟩
    | traversal n => exact ⟨_, k2.1 m2 n he, trivial, rfl⟩
    | dataLayout n => exact ⟨_, k3.1 m3 n he, trivial, rfl⟩
    | loadEstimator n => exact ⟨_, k4.1 m4 n he, trivial, rfl⟩
    | newton3 n => exact ⟨_, k5.1 m5 n he, trivial, rfl⟩
    | cellSizeFactor n => exact absurd he (hes n)
  · intro h
    refine ⟨?_, ?_, ?_, ?_, ?_, ?_⟩ <;> unfold fuzzyPattern
    · rw [h1]; refine k1.2 fun n hn => ?_
      obtain ⟨e', he', hs, hm⟩ := h _ hn
      rw [← meets_container hs hm]; exact he'
    · rw [h2]; refine k2.2 fun n hn => ?_
      obtain ⟨e', he', hs, hm⟩ := h _ hn
      rw [← meets_traversal hs hm]; exact he'
    · rw [h4]; refine k4.2 fun n hn => ?_
      obtain ⟨e', he', hs, hm⟩ := h _ hn
      rw [← meets_loadEstimator hs hm]; exact he'
    · rw [h3]; refine k3.2 fun n hn => ?_
      obtain ⟨e', he', hs, hm⟩ := h _ hn
      rw [← meets_dataLayout hs hm]; exact he'
    · rw [h5]; refine k5.2 fun n hn => ?_
      obtain ⟨e', he', hs, hm⟩ := h _ hn
      rw [← meets_newton3 hs hm]; exact he'
    · rw [h6]; intro hc; exact absurd rfl hc

/-- A pattern that asks for a cell size factor is matched by every configuration, whatever its cell size factor. -/
theorem C103_violated_cell_size_factor (n : Nat) (c : Configuration Rat) : Matches (fuzzyPattern [.cellSizeFactor n]) c := by
  refine ⟨?_, ?_, ?_, ?_, ?_, ?_⟩ <;> simp [fuzzyPattern, CfgPattern.addEntry]

/-- `reset` keeps exactly the configurations that are selected, and turns the order of the queue around. -/
theorem C103_reset {K : Type} [Field K] [LinearOrder K] [HasExp K] {f : FuzzyTuner K} {data : FuzzyData K}
    {sel : List (List CfgPattern)} (h : f.select data = .ok sel) (q : List (Configuration Rat)) :
    ∃ q', f.reset data q = .ok (q', false) ∧ q'.reverse.Sublist q ∧ ∀ c, c ∈ q' ↔ c ∈ q ∧ Selected sel c := by
  refine ⟨individualQueue sel q, by simp [FuzzyTuner.reset, h, Outcome.bind], ?_, ?_⟩
  · rw [individualQueue_eq, List.reverse_reverse]; exact List.filter_sublist
  · intro c
    rw [individualQueue_eq, List.mem_reverse, List.mem_filter, fuzzyKeeps_iff]

/-- **C103.** Let `sel p` be the patterns selected for the live information `data p` of tuning phase `p`, and `T p` what is to be
tested according to them. In the iterations of the phase each applicable configuration of `T p` is used `maxSamples` times
in a row, the rest of the interval uses one with the smallest cost of them. For all rules, data, search spaces, verdicts,
measurements and numbers of intervals. -/
theorem C103_tested_partial {K : Type} [Field K] [LinearOrder K] [HasExp K] {f : FuzzyTuner K} {data : Nat → FuzzyData K}
    {sel : Nat → List (List CfgPattern)} (_hsel : ∀ p, f.select (data p) = .ok (sel p))
    {cfg : TunerCfg Unit (Configuration Rat)}
    {v : Configuration Rat → Verdict} {S : List (Configuration Rat)} {s : Unit} {t : Tuner Unit (Configuration Rat)}
    (hinit : Tuner.init cfg S s = .ok t) (hst : cfg.strategies = [fuzzyStrategy sel]) (hsmooth : cfg.smooth = none)
    (hmax : 0 < cfg.maxSamples) (hnd : S.Nodup)
    {T : Nat → List (Configuration Rat)} (hT : ∀ p, FuzzyToTest (sel p) S (T p))
    (htwo : ∀ p, TwoCompatible v (T p)) (hlast : ∀ p x, (T p).getLast? = some x → v x = .applicable)
    (hfit : ∀ p, ((T p).filter (fun c => v c = .applicable)).length * cfg.maxSamples < cfg.tuningInterval)
    (xss : List (List (Int × Bool))) (hlen : ∀ xs ∈ xss, xs.length = cfg.tuningInterval)
    (hrange : ∀ p xs, xss[p]? = some xs → ∀ i < ((T p).filter (fun c => v c = .applicable)).length,
      chunkEstimate cfg (block cfg.maxSamples i xs) < longMax) :
    ∃ (t' : Tuner Unit (Configuration Rat)) (uss : List (List (Configuration Rat))),
      tunerRun cfg (S.length + 1) v t xss.flatten = .ok (t', uss.flatten) ∧ uss.length = xss.length ∧
      ∀ p xs used, xss[p]? = some xs → uss[p]? = some used → used.length = cfg.tuningInterval ∧
        ∃ best, SampledThen ((T p).filter (fun c => v c = .applicable)) cfg.maxSamples best used ∧
          Fastest ((T p).filter (fun c => v c = .applicable)) (fun i => chunkEstimate cfg (block cfg.maxSamples i xs)) best := by
  have hTe : ∀ p, T p = pick (fuzzyReversed (sel p) S) (fuzzyTested (sel p) S) S := fun p =>
    fuzzyToTest_unique hnd (hT p) (fuzzyToTest_pick _ _)
  have h0 := intervalStart_init (v := v) hinit
  have := narrowed_intervals (apps := fun p => (T p).filter (fun c => v c = .applicable)) hmax hsmooth hnd
    (k := fun p => fuzzyTested (sel p) S) (rev := fun p => fuzzyReversed (sel p) S) (Inv := fun _ _ _ => True)
    (fun p => fuzzyStrategy_narrows hst (by rw [← hTe]; exact htwo p))
    (by intro p; rw [← hTe]; exact htwo p) (by intro p; rw [← hTe]; exact hlast p) (by intro p; simp only [hTe p]) hfit
    xss 0 t h0 hlen (by simpa using hrange)
  simpa using this

/-- Adding rules one after the other. -/
noncomputable def addRules (s : FuzzySystem ℝ) : List (FuzzyRule ℝ) → Outcome (FuzzySystem ℝ)
  | [] => .ok s
  | r :: rs => (s.addRule r).bind fun s => addRules s rs

theorem addRules_some {d : String} : ∀ (rs old : List (FuzzyRule ℝ)) (s : FuzzySystem ℝ), addRules ⟨some d, old⟩ rs = .ok s ↔
    (∀ r ∈ rs, ∃ range, r.consequent.dims = [(d, range)]) ∧ s = ⟨some d, old ++ rs⟩ := by
  intro rs
  induction rs with
  | nil => intro old s; simp [addRules, eq_comm]
  | cons r rs ih =>
    intro old s
    unfold addRules FuzzySystem.addRule
    simp only
    split
    · rename_i name range hd
      split_ifs with hn
      · simp only [Outcome.bind, List.forall_mem_cons, hd]
        constructor
        · intro h; cases h
        · rintro ⟨⟨⟨_, h⟩, -⟩, -⟩
          simp only [List.cons.injEq, Prod.mk.injEq] at h
          exact absurd h.1.1.symm hn
      · have hn : d = name := not_not.1 hn
        subst hn
        simp only [Outcome.bind, List.forall_mem_cons, hd]
        rw [ih]
        simp
    · rename_i hno
      simp only [Outcome.bind, List.forall_mem_cons]
      constructor
      · intro h; cases h
      · rintro ⟨⟨⟨range, h⟩, -⟩, -⟩
        exact absurd h (hno d range)

/-- **C103**, the rules of a system: a (non-empty) list of rules is accepted if and only if all consequents are about one and the same variable; the
system has exactly these rules, in this order, and no other list is accepted. -/
theorem C103_rules_of_system (r : FuzzyRule ℝ) (rs : List (FuzzyRule ℝ)) (s : FuzzySystem ℝ) : addRules ⟨none, []⟩ (r :: rs) = .ok s ↔
    ∃ d, (∀ r' ∈ r :: rs, ∃ range, r'.consequent.dims = [(d, range)]) ∧ s = ⟨some d, r :: rs⟩ := by
  unfold addRules FuzzySystem.addRule
  simp only
  split
  · rename_i name range hd
    simp only [Outcome.bind]
    rw [addRules_some]
    constructor
    · rintro ⟨h1, h2⟩
      refine ⟨name, ?_, by simpa using h2⟩
      intro r' hr'
      rcases List.mem_cons.1 hr' with rfl | hr'
      · exact ⟨range, hd⟩
      · exact h1 r' hr'
    · rintro ⟨d, h1, h2⟩
      obtain ⟨range', h3⟩ := h1 r (by simp)
      rw [hd] at h3
      simp only [List.cons.injEq, Prod.mk.injEq] at h3
      have := h3.1.1
      subst this
      exact ⟨fun r' hr' => h1 r' (by simp [hr']), by simpa using h2⟩
  · rename_i hno
    simp only [Outcome.bind]
    constructor
    · intro h; cases h
    · rintro ⟨d, h1, -⟩
      obtain ⟨range, h⟩ := h1 r (by simp)
      exact absurd h (hno d range)

/-! ### The hypotheses are met -/

/-- An input variable and two output terms. -/
noncomputable def exFew : FuzzySet ℝ := .base "particles" 0 100 (.sigmoidFinite 60 40 20)
noncomputable def exOff : FuzzySet ℝ := .base "newton3" 1 3 (.triangle 0 1 2)
noncomputable def exOn : FuzzySet ℝ := .base "newton3" 1 3 (.triangle 2 3 4)

/-- Few particles: off; not few particles: on. -/
noncomputable def exSystem : FuzzySystem ℝ := ⟨some "newton3", [⟨exFew, exOff⟩, ⟨.not exFew, exOn⟩]⟩

noncomputable def exSettings (m : DefuzzMethod) : FuzzySettings ℝ := ⟨some m, some 3, some "IndividualSystems", none⟩

theorem exSystem_for (x : ℝ) : SystemFor exSystem.rules (onlyValue "particles" x) "newton3" 1 3 := by
  refine ⟨by simp [exSystem], ?_, ?_, ?_⟩ <;> intro r hr <;> simp only [exSystem, List.mem_cons, List.not_mem_nil, or_false] at hr <;>
    rcases hr with rfl | rfl
  · rfl
  · rfl
  · exact ⟨_, by simp only [exFew, FuzzySet.eval, onlyValue, if_true]; rfl⟩
  · exact ⟨_, by simp only [exFew, FuzzySet.eval, onlyValue, if_true, Outcome.bind]; rfl⟩
  · exact ⟨trivial, trivial⟩
  · exact ⟨trivial, trivial⟩

/-- Both rules were accepted by `addRule`. -/
example : ((⟨none, []⟩ : FuzzySystem ℝ).addRule ⟨exFew, exOff⟩).bind (fun s => s.addRule ⟨.not exFew, exOn⟩) = .ok exSystem := by
  simp [FuzzySystem.addRule, exOff, exOn, FuzzySet.dims, Outcome.bind, exSystem]

theorem ex_degrees : ∀ i < 3, SuggestedDegree exSystem.rules (onlyValue "particles" 30) "newton3" (evenPoint 3 (1 : ℝ) 3 i)
    ((fun i : Nat => if i = 0 then 7 / 8 else if i = 2 then 1 / 8 else 0 : Nat → ℝ) i) := by
  have hfew : exFew.eval (onlyValue "particles" 30) = .ok (7 / 8) := by
    simp only [exFew, FuzzySet.eval, onlyValue, if_true, MembershipFn.eval, sShape]
    norm_num
  have hnot : (FuzzySet.not exFew).eval (onlyValue "particles" 30) = .ok (1 / 8) := by
    simp only [FuzzySet.eval, hfew, Outcome.bind]
    norm_num
  intro i hi
  have hoff : exOff.eval (onlyValue "newton3" (evenPoint 3 (1 : ℝ) 3 i)) = .ok (if i = 0 then 1 else 0) := by
    simp only [exOff, FuzzySet.eval, onlyValue, if_true, MembershipFn.eval, evenPoint]
    interval_cases i <;> norm_num
  have hon : exOn.eval (onlyValue "newton3" (evenPoint 3 (1 : ℝ) 3 i)) = .ok (if i = 2 then 1 else 0) := by
    simp only [exOn, FuzzySet.eval, onlyValue, if_true, MembershipFn.eval, evenPoint]
    interval_cases i <;> norm_num
  constructor
  · by_cases h0 : i = 0
    · exact ⟨⟨exFew, exOff⟩, by simp [exSystem], _, _, hfew, hoff, by simp [h0]; norm_num⟩
    · refine ⟨⟨.not exFew, exOn⟩, by simp [exSystem], _, _, hnot, hon, ?_⟩
      by_cases h2 : i = 2
      · simp [h2]; norm_num
      · simp [h0, h2]
  · rintro d ⟨r, hr, a, c, ha, hc, rfl⟩
    simp only [exSystem, List.mem_cons, List.not_mem_nil, or_false] at hr
    rcases hr with rfl | rfl
    · rw [hfew] at ha; rw [hoff] at hc
      cases ha; cases hc
      interval_cases i <;> norm_num
    · rw [hnot] at ha; rw [hon] at hc
      cases ha; cases hc
      interval_cases i <;> norm_num

/-- The center of gravity of the example, with three samples: (1 · 7/8 + 3 · 1/8) / 1. -/
theorem ex_predict : exSystem.predict (exSettings .centerOfGravity) (onlyValue "particles" 30) = .ok (5 / 4) := by
  rw [C103_center_of_gravity (exSystem_for 30) (by norm_num) rfl (n := 3) rfl (by norm_num) ex_degrees]
  simp only [Finset.sum_range_succ, Finset.sum_range_zero, evenPoint]
  norm_num

/-- The mean of maximum: the first value. -/
example : exSystem.predict (exSettings .meanOfMaximum) (onlyValue "particles" 30) = .ok 1 := by
  rw [C103_mean_of_maximum (exSystem_for 30) (by norm_num) rfl (n := 3) rfl (by norm_num) ex_degrees (M := 7 / 8)]
  · have : (Finset.range 3).filter (fun i => ((fun i : Nat => if i = 0 then 7 / 8 else if i = 2 then 1 / 8 else 0 : Nat → ℝ) i) = 7 / 8)
        = {0} := by
      ext i
      simp only [Finset.mem_filter, Finset.mem_range, Finset.mem_singleton]
      constructor
      · rintro ⟨h, he⟩
        interval_cases i
        · rfl
        · norm_num at he
        · norm_num at he
      · rintro rfl; norm_num
    rw [this]
    simp [evenPoint]
  · refine ⟨⟨0, by norm_num, by norm_num⟩, ?_⟩
    rintro d ⟨i, hi, rfl⟩
    interval_cases i <;> norm_num
  · intro i hi
    interval_cases i <;> norm_num

/-- The closest of two values: off. -/
theorem ex_closest : OutputMapper.closest [((1 : ℝ), [fuzzyPattern [.newton3 0]]), (3, [fuzzyPattern [.newton3 1]])] (5 / 4) =
    .ok [fuzzyPattern [.newton3 0]] := by
  have h : ¬ |(3 : ℝ) - 5 / 4| < |(1 : ℝ) - 5 / 4| := by
    rw [abs_of_nonneg (by norm_num), abs_of_neg (by norm_num)]; norm_num
  simp only [OutputMapper.closest, closestEntry, List.foldl_cons, List.foldl_nil, if_neg h]

/-- The whole selection for the example. -/
noncomputable def exTuner : FuzzyTuner ℝ :=
  ⟨exSettings .centerOfGravity, [(exSystem, some [(1, [fuzzyPattern [.newton3 0]]), (3, [fuzzyPattern [.newton3 1]])])]⟩

example : exTuner.select (onlyValue "particles" 30) = .ok [[fuzzyPattern [.newton3 0]]] := by
  have h := ex_predict
  simp only [FuzzyTuner.select, exTuner, exSettings, if_true, FuzzyTuner.predictAll, FuzzyTuner.predictPatterns] at h ⊢
  simp only [h, Outcome.bind, ex_closest, List.map_cons, List.map_nil]

/-- A clear case: 10 particles are few. -/
example : ClearCase (fun _ => (10 : ℝ)) (.or (.not exFew) exFew) := by
  have : (MembershipFn.sigmoidFinite (60 : ℝ) 40 20).eval 10 = 1 := by
    simp only [MembershipFn.eval, sShape]; norm_num
  exact ⟨.inr this, .inr this⟩

/-- No rule of a system with only the first rule fires for 70 particles. -/
example : SystemFor [(⟨exFew, exOff⟩ : FuzzyRule ℝ)] (onlyValue "particles" 70) "newton3" 1 3 ∧
    exFew.eval (onlyValue "particles" 70) = .ok 0 := by
  have h : exFew.eval (onlyValue "particles" 70) = .ok 0 := by
    simp only [exFew, FuzzySet.eval, onlyValue, if_true, MembershipFn.eval, sShape]
    norm_num
  refine ⟨⟨by simp, ?_, ?_, ?_⟩, h⟩ <;> intro r hr <;> rw [List.mem_singleton] at hr <;> subst hr
  · rfl
  · exact ⟨0, h⟩
  · exact ⟨trivial, trivial⟩

/-- Suitabilities 1, 0.8 and 0.5 with a threshold of 0.3. -/
example (a b c : CfgPattern) : IsGreatest {x | ∃ e ∈ [(c, (0.5 : ℝ)), (a, 1), (b, 0.8)], x = e.2} 1 := by
  refine ⟨⟨(a, 1), by simp, rfl⟩, ?_⟩
  rintro x ⟨e, he, rfl⟩
  simp only [List.mem_cons, List.not_mem_nil, or_false] at he
  rcases he with rfl | rfl | rfl <;> norm_num

/-- Three configurations; two of them are selected, the last one is tested first. -/
def exFuzzyCfg (n3 csf : Nat) : Configuration Rat := ⟨0, 0, 0, 0, n3, csf, 0⟩

example : FuzzyToTest [[fuzzyPattern [.newton3 0]]] [exFuzzyCfg 0 1, exFuzzyCfg 1 1, exFuzzyCfg 0 2] [exFuzzyCfg 0 2, exFuzzyCfg 0 1] := by
  have h := fuzzyToTest_pick [[fuzzyPattern [.newton3 0]]] [exFuzzyCfg 0 1, exFuzzyCfg 1 1, exFuzzyCfg 0 2]
  have e : pick (fuzzyReversed [[fuzzyPattern [.newton3 0]]] [exFuzzyCfg 0 1, exFuzzyCfg 1 1, exFuzzyCfg 0 2])
      (fuzzyTested [[fuzzyPattern [.newton3 0]]] [exFuzzyCfg 0 1, exFuzzyCfg 1 1, exFuzzyCfg 0 2])
      [exFuzzyCfg 0 1, exFuzzyCfg 1 1, exFuzzyCfg 0 2] = [exFuzzyCfg 0 2, exFuzzyCfg 0 1] := by decide +kernel
  rwa [e] at h

def exFuzzyTunerCfg : TunerCfg Unit (Configuration Rat) :=
  { tuningInterval := 5, maxSamples := 1, rebuildFrequency := 1, selector := .fastestAbs,
    strategies := [fuzzyStrategy fun _ => [[fuzzyPattern [.newton3 0]]]], smooth := none }

/-- The side conditions of `C103_tested_partial` … -/
example : TwoCompatible (fun _ => .applicable) [exFuzzyCfg 0 2, exFuzzyCfg 0 1] ∧
    ([exFuzzyCfg 0 2, exFuzzyCfg 0 1].filter (fun _ => decide (Verdict.applicable = .applicable))).length *
      exFuzzyTunerCfg.maxSamples < exFuzzyTunerCfg.tuningInterval :=
  ⟨⟨exFuzzyCfg 0 1, by decide +kernel, exFuzzyCfg 0 2, by decide +kernel, by decide +kernel, by decide, by decide⟩, by decide⟩

/-- … and what happens: the configuration with Newton 3 is never used. -/
example : (match Tuner.init exFuzzyTunerCfg [exFuzzyCfg 0 1, exFuzzyCfg 1 1, exFuzzyCfg 0 2] () with
      | .ok t => (match tunerRun exFuzzyTunerCfg 4 (fun _ => .applicable) t
          [(9, true), (5, false), (7, true), (4, false), (9, true)] with
        | .ok r => some r.2
        | _ => none)
      | _ => none) = some [exFuzzyCfg 0 2, exFuzzyCfg 0 1, exFuzzyCfg 0 1, exFuzzyCfg 0 1, exFuzzyCfg 0 1] := by
  decide +kernel

end Verif
