import Verif.Lemmas.FuzzyLogic
import Verif.Lemmas.RuleBasedTuning
import Verif.Lemmas.NarrowedIntervals
/-! Prediction of a fuzzy system; selection of configurations by fuzzy tuning. -/
namespace Verif
open Spec

section
variable {K : Type} [Field K] [LinearOrder K] [IsStrictOrderedRing K]

/-- The prediction in terms of the degrees at the sample points. -/
theorem predict_samples [HasExp K] {s : FuzzySystem K} {data : FuzzyData K} {name : String} {lo hi : K}
    (h : SystemFor s.rules data name lo hi) (hlt : lo < hi) {settings : FuzzySettings K} {m : DefuzzMethod}
    (hm : settings.method = some m) {n : Nat} (hn : settings.numSamples.getD 1000 = n) (h2 : 2 ≤ n) {μ : Nat → K}
    (hμ : ∀ i < n, SuggestedDegree s.rules data name (evenPoint n lo hi i) (μ i)) :
    s.predict settings data = .ok (match m with
      | .centerOfGravity => cogOf ((List.range n).map fun i => (evenPoint n lo hi i, μ i))
      | .meanOfMaximum => momOf ((List.range n).map fun i => (evenPoint n lo hi i, μ i))) := by
  obtain ⟨u, hu, hd, hev⟩ := system_union h
  choose f hf1 hf2 using hev
  unfold FuzzySystem.predict FuzzySet.defuzzify
  simp only [hu, Outcome.bind, hm, hd, hn, samplePoints_even h2 hlt, evalAt_spec hf1]
  have : ((List.range n).map (evenPoint n lo hi)).map (fun x => (x, f x)) =
      (List.range n).map fun i => (evenPoint n lo hi i, μ i) := by
    rw [List.map_map]
    apply List.map_congr_left
    intro i hi'
    rw [List.mem_range] at hi'
    have : f (evenPoint n lo hi i) = μ i := (hf2 _).unique (hμ i hi')
    simp [this]
  rw [this]
  cases m <;> rfl

theorem suggested_unit [HasExp K] {rules : List (FuzzyRule K)} {data : FuzzyData K} {name : String} {lo hi : K}
    (h : SystemFor rules data name lo hi) {x m : K} (hm : SuggestedDegree rules data name x m) : 0 ≤ m ∧ m ≤ 1 := by
  obtain ⟨r, hr, a, c, ha, hc, rfl⟩ := hm.1
  have h1 := set_unit _ (h.proper r hr).1 ha
  have h2 := set_unit _ (h.proper r hr).2 hc
  exact ⟨le_min h1.1 h2.1, (min_le_left _ _).trans h1.2⟩

theorem suggested_exists [HasExp K] {s : FuzzySystem K} {data : FuzzyData K} {name : String} {lo hi : K}
    (h : SystemFor s.rules data name lo hi) (x : K) : ∃ m, SuggestedDegree s.rules data name x m := by
  obtain ⟨u, -, -, hev⟩ := system_union h
  obtain ⟨m, -, hm⟩ := hev x
  exact ⟨m, hm⟩

omit [IsStrictOrderedRing K] in
theorem closest_fold (v : K) : ∀ (es : List (K × List CfgPattern)) (before mid : List (K × List CfgPattern))
    (best : K × List CfgPattern), (∀ e ∈ before, |best.1 - v| < |e.1 - v|) → (∀ e ∈ mid, |best.1 - v| ≤ |e.1 - v|) →
    FirstClosest (before ++ best :: mid ++ es) v
      (es.foldl (fun best e => if |e.1 - v| < |best.1 - v| then e else best) best) := by
  intro es
  induction es with
  | nil =>
    intro before mid best h1 h2
    refine ⟨?_, before, mid, by simp, h1⟩
    intro e he
    simp only [List.append_nil, List.mem_append, List.mem_cons] at he
    rcases he with he | rfl | he
    · exact (h1 e he).le
    · exact le_refl _
    · exact h2 e he
  | cons e es ih =>
    intro before mid best h1 h2
    rw [List.foldl_cons]
    split_ifs with hlt
    · have := ih (before ++ best :: mid) [] e (by
        intro x hx
        simp only [List.mem_append, List.mem_cons] at hx
        rcases hx with hx | rfl | hx
        · exact hlt.trans (h1 x hx)
        · exact hlt
        · exact lt_of_lt_of_le hlt (h2 x hx)) (by simp)
      simpa using this
    · have := ih before (mid ++ [e]) best h1 (by
        intro x hx
        simp only [List.mem_append, List.mem_singleton] at hx
        rcases hx with hx | rfl
        · exact h2 x hx
        · exact not_lt.1 hlt)
      simpa using this

omit [Field K] [IsStrictOrderedRing K] in
theorem suitabilityInsert_mem {e x : CfgPattern × K} : ∀ {l : List (CfgPattern × K)}, x ∈ suitabilityInsert e l ↔ x = e ∨ x ∈ l := by
  intro l
  induction l with
  | nil => simp [suitabilityInsert]
  | cons d l ih =>
    unfold suitabilityInsert
    split_ifs
    · simp
    · simp only [List.mem_cons, ih]
      tauto

omit [Field K] [IsStrictOrderedRing K] in
theorem suitabilityInsert_sorted {e : CfgPattern × K} : ∀ {l : List (CfgPattern × K)},
    l.Pairwise (fun a b => b.2 ≤ a.2) → (suitabilityInsert e l).Pairwise (fun a b => b.2 ≤ a.2) := by
  intro l
  induction l with
  | nil => intro _; simp [suitabilityInsert]
  | cons d l ih =>
    intro h
    rw [List.pairwise_cons] at h
    unfold suitabilityInsert
    split_ifs with hgt
    · rw [List.pairwise_cons, List.pairwise_cons]
      refine ⟨?_, h⟩
      intro x hx
      rw [List.mem_cons] at hx
      rcases hx with rfl | hx
      · exact hgt.le
      · exact (h.1 x hx).trans hgt.le
    · rw [List.pairwise_cons]
      refine ⟨?_, ih h.2⟩
      intro x hx
      rw [suitabilityInsert_mem] at hx
      rcases hx with rfl | hx
      · exact not_lt.1 hgt
      · exact h.1 x hx

omit [Field K] [IsStrictOrderedRing K] in
theorem suitabilitySort_spec (es : List (CfgPattern × K)) :
    (suitabilitySort es).Pairwise (fun a b => b.2 ≤ a.2) ∧ ∀ x, x ∈ suitabilitySort es ↔ x ∈ es := by
  unfold suitabilitySort
  have key : ∀ (es acc : List (CfgPattern × K)), acc.Pairwise (fun a b => b.2 ≤ a.2) →
      (es.foldl (fun acc e => suitabilityInsert e acc) acc).Pairwise (fun a b => b.2 ≤ a.2) ∧
        ∀ x, x ∈ es.foldl (fun acc e => suitabilityInsert e acc) acc ↔ x ∈ es ∨ x ∈ acc := by
    intro es
    induction es with
    | nil => intro acc h; exact ⟨h, by simp⟩
    | cons e es ih =>
      intro acc h
      rw [List.foldl_cons]
      obtain ⟨h1, h2⟩ := ih _ (suitabilityInsert_sorted (e := e) h)
      refine ⟨h1, fun x => ?_⟩
      rw [h2, suitabilityInsert_mem, List.mem_cons]
      tauto
  obtain ⟨h1, h2⟩ := key es [] (by simp)
  exact ⟨h1, by simpa using h2⟩

omit [Field K] [IsStrictOrderedRing K] in
/-- On a descending list, everything until the first below `b` is everything not below `b`. -/
theorem takeWhile_desc {b : K} {x : CfgPattern × K} : ∀ {l : List (CfgPattern × K)}, l.Pairwise (fun a b => b.2 ≤ a.2) →
    (x ∈ l.takeWhile (fun e => !decide (e.2 < b)) ↔ x ∈ l ∧ b ≤ x.2) := by
  intro l
  induction l with
  | nil => intro _; simp
  | cons d l ih =>
    intro h
    rw [List.pairwise_cons] at h
    rw [List.takeWhile_cons]
    by_cases hd : d.2 < b
    · simp only [hd, decide_true, Bool.not_true, Bool.false_eq_true, if_false, List.not_mem_nil, List.mem_cons, false_iff, not_and,
        not_le]
      rintro (rfl | hx)
      · exact hd
      · exact lt_of_le_of_lt (h.1 x hx) hd
    · simp only [hd, decide_false, Bool.not_false, if_true, List.mem_cons, ih h.2]
      constructor
      · rintro (rfl | ⟨h1, h2⟩)
        · exact ⟨.inl rfl, not_lt.1 hd⟩
        · exact ⟨.inr h1, h2⟩
      · rintro ⟨rfl | h1, h2⟩
        · exact .inl rfl
        · exact .inr ⟨h1, h2⟩

end

/-- The predicate that selects what stays in the queue. -/
def fuzzyKeeps (sel : List (List CfgPattern)) (c : Configuration Rat) : Bool := sel.all fun ps => anyMatches ps c

theorem fuzzyKeeps_iff {sel : List (List CfgPattern)} {c : Configuration Rat} : fuzzyKeeps sel c = true ↔ Selected sel c := by
  unfold fuzzyKeeps anyMatches Selected
  simp only [List.all_eq_true, List.any_eq_true, matches_iff]

theorem individualQueue_eq : ∀ (sel : List (List CfgPattern)) (q : List (Configuration Rat)),
    individualQueue sel q = (q.filter (fuzzyKeeps sel)).reverse := by
  intro sel
  unfold individualQueue
  induction sel with
  | nil =>
    intro q
    have : q.filter (fuzzyKeeps []) = q := by rw [List.filter_eq_self]; intro a _; rfl
    rw [this]; rfl
  | cons p sel ih =>
    intro q
    rw [List.foldl_cons, ih, List.filter_filter]
    congr 2
    funext c
    simp only [fuzzyKeeps, List.all_cons]
    rw [Bool.and_comm]

/-- What is tested: the selected ones, all if there are none. -/
def fuzzyTested (sel : List (List CfgPattern)) (S : List (Configuration Rat)) (c : Configuration Rat) : Bool :=
  fuzzyKeeps sel c || S.all (fun d => !fuzzyKeeps sel d)

/-- In which order. -/
def fuzzyReversed (sel : List (List CfgPattern)) (S : List (Configuration Rat)) : Bool := S.any (fuzzyKeeps sel)

theorem fuzzyToTest_pick (sel : List (List CfgPattern)) (S : List (Configuration Rat)) :
    FuzzyToTest sel S (pick (fuzzyReversed sel S) (fuzzyTested sel S) S) := by
  refine ⟨?_, ?_, ?_⟩
  · intro c
    rw [mem_pick]
    refine and_congr_right fun _ => ?_
    unfold fuzzyTested
    simp only [Bool.or_eq_true, List.all_eq_true, Bool.not_eq_true', fuzzyKeeps_iff]
    refine or_congr Iff.rfl (forall_congr' fun d => imp_congr_right fun _ => ?_)
    rw [← Bool.not_eq_true, fuzzyKeeps_iff]
  · rintro ⟨c, hc, hs⟩
    have : fuzzyReversed sel S = true := by
      unfold fuzzyReversed
      rw [List.any_eq_true]
      exact ⟨c, hc, fuzzyKeeps_iff.2 hs⟩
    rw [this]
    simp only [pick, List.reverse_reverse]
    exact List.filter_sublist
  · intro h
    have h1 : ∀ d ∈ S, fuzzyKeeps sel d = false := by
      intro d hd
      rw [← Bool.not_eq_true, fuzzyKeeps_iff]
      exact h d hd
    have h2 : fuzzyReversed sel S = false := by
      unfold fuzzyReversed
      rw [List.any_eq_false]
      intro x hx
      rw [h1 x hx]; simp
    rw [h2]
    show S.filter _ = S
    rw [List.filter_eq_self]
    intro a ha
    unfold fuzzyTested
    rw [Bool.or_eq_true]
    right
    rw [List.all_eq_true]
    intro x hx
    rw [h1 x hx]; rfl

theorem fuzzyToTest_unique {sel : List (List CfgPattern)} {S T T' : List (Configuration Rat)} (hS : S.Nodup)
    (h : FuzzyToTest sel S T) (h' : FuzzyToTest sel S T') : T = T' := by
  by_cases hex : ∃ c ∈ S, Selected sel c
  · have hs := h.selectedOrder hex
    have hs' := h'.selectedOrder hex
    have hp : T.reverse.Perm T'.reverse := by
      rw [List.perm_ext_iff_of_nodup (hs.nodup hS) (hs'.nodup hS)]
      intro a
      rw [List.mem_reverse, List.mem_reverse, h.mem, h'.mem]
    have key : ∀ R R' : List (Configuration Rat), R.Sublist S → R'.Sublist S → R.Perm R' → R = R' := by
      intro R R' h1 h2 hp
      have e : ∀ R : List (Configuration Rat), R.Sublist S → R = S.filter (fun c => c ∈ R) := by
        intro R hR
        have hp : R.Perm (S.filter (fun c => c ∈ R)) := by
          rw [List.perm_ext_iff_of_nodup (hR.nodup hS) (hS.filter _)]
          intro a
          rw [List.mem_filter]
          exact ⟨fun ha => ⟨hR.subset ha, by simpa using ha⟩, fun ha => by simpa using ha.2⟩
        have h3 := hR.filter (fun c => decide (c ∈ R))
        rw [List.filter_eq_self.2 (by intro a ha; simpa using ha)] at h3
        exact h3.eq_of_length hp.length_eq
      rw [e R h1, e R' h2]
      apply List.filter_congr
      intro x _
      have := hp.mem_iff (a := x)
      simp [this]
    have := key _ _ hs hs' hp
    exact List.reverse_injective this
  · have hn : ∀ c ∈ S, ¬ Selected sel c := fun c hc hs => hex ⟨c, hc, hs⟩
    rw [h.otherwise hn, h'.otherwise hn]

/-- Fuzzy tuning as the only strategy. -/
theorem fuzzyStrategy_narrows {cfg : TunerCfg Unit (Configuration Rat)} {sel : Nat → List (List CfgPattern)}
    (hst : cfg.strategies = [fuzzyStrategy sel]) {v : Configuration Rat → Verdict} {S0 : List (Configuration Rat)} {p : Nat}
    (htwo : TwoCompatible v (pick (fuzzyReversed (sel p) S0) (fuzzyTested (sel p) S0) S0)) :
    Narrows cfg v S0 p (fuzzyTested (sel p) S0) (fuzzyReversed (sel p) S0) (fun _ _ => True) := by
  have hopt : ∀ q s ev, (runOptimize ev cfg.strategies q s).1 = q := by
    intro q s ev
    rw [hst]
    simp only [runOptimize, fuzzyStrategy]
    cases q <;> rfl
  have hraw : ∀ q s ev, (runOptimizeRaw ev cfg.strategies q s).1 = q := by
    intro q s ev
    rw [hst]
    simp only [runOptimizeRaw, fuzzyStrategy]
  refine ⟨?_, fun q s ev _ => ⟨hopt q s ev, trivial⟩, fun q s ev _ => ⟨hraw q s ev, trivial⟩, fun _ _ _ _ _ => trivial,
    fun _ _ _ _ _ => trivial, fun _ _ _ _ _ => trivial⟩
  intro S s it ev hS
  refine ⟨?_, trivial⟩
  have htwo' := (Keeps.pick hS (fuzzyReversed (sel p) S0) (fuzzyTested (sel p) S0)).two htwo
  have hsub : ∀ x ∈ S, x ∈ S0 := by
    obtain ⟨f, rfl, -⟩ := hS
    exact fun x hx => (List.mem_filter.1 hx).1
  rw [hst]
  simp only [runReset, fuzzyStrategy, individualQueue_eq, Bool.not_false, Bool.true_and]
  by_cases hrev : fuzzyReversed (sel p) S0 = true
  · -- something is selected
    have hnall : S0.all (fun d => !fuzzyKeeps (sel p) d) = false := by
      unfold fuzzyReversed at hrev
      rw [List.any_eq_true] at hrev
      obtain ⟨x, hx, hk⟩ := hrev
      rw [← Bool.not_eq_true, List.all_eq_true]
      intro hc
      have := hc x hx
      rw [hk] at this
      simp at this
    have hkt : fuzzyTested (sel p) S0 = fuzzyKeeps (sel p) := by
      funext c
      unfold fuzzyTested
      rw [hnall, Bool.or_false]
    rw [hrev, hkt] at htwo' ⊢
    obtain ⟨a, ha, -⟩ := htwo'
    rw [mem_pick] at ha
    have hne : ((S.reverse.filter (fuzzyKeeps (sel p))).reverse).isEmpty = false := by
      rw [List.isEmpty_eq_false_iff]
      intro hc
      have : a ∈ (S.reverse.filter (fuzzyKeeps (sel p))).reverse := by
        rw [List.mem_reverse, List.mem_filter, List.mem_reverse]; exact ha
      rw [hc] at this
      simp at this
    rw [hne]
    simp only [Bool.false_eq_true, if_false, pick, List.reverse_reverse, List.filter_reverse]
  · have hrev' : fuzzyReversed (sel p) S0 = false := by simpa using hrev
    have hnone : ∀ x ∈ S0, fuzzyKeeps (sel p) x = false := by
      unfold fuzzyReversed at hrev'
      rw [List.any_eq_false] at hrev'
      intro x hx
      simpa using hrev' x hx
    have hempty : S.reverse.filter (fuzzyKeeps (sel p)) = [] := by
      rw [List.filter_eq_nil_iff]
      intro x hx
      rw [List.mem_reverse] at hx
      rw [hnone x (hsub x hx)]
      simp
    rw [hempty, hrev']
    simp only [List.reverse_nil, List.isEmpty_nil, if_true, pick]
    congr 1
    rw [eq_comm, List.filter_eq_self]
    intro x hx
    unfold fuzzyTested
    rw [Bool.or_eq_true]
    right
    rw [List.all_eq_true]
    intro y hy
    rw [hnone y hy]; rfl

end Verif
