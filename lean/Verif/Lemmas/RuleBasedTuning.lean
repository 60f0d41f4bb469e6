import Verif.Lemmas.TuningFilter
import Verif.Spec.RuleTuning
/-! Rule-based tuning narrows the search space. -/
namespace Verif
open Spec

theorem matches_iff {p : CfgPattern} {c : Configuration Rat} : p.matches c = true ↔ Matches p c := by
  have key : ∀ {α : Type} [DecidableEq α] (l : List α) (x : α), (l.isEmpty || l.contains x) = true ↔ (l ≠ [] → x ∈ l) := by
    intro α _ l x
    cases l with
    | nil => simp
    | cons => simp
  unfold CfgPattern.matches
  simp only [Bool.and_eq_true, key]
  constructor
  · rintro ⟨⟨⟨⟨⟨h1, h2⟩, h3⟩, h4⟩, h5⟩, h6⟩; exact ⟨h1, h2, h3, h4, h5, h6⟩
  · rintro ⟨h1, h2, h3, h4, h5, h6⟩; exact ⟨⟨⟨⟨⟨h1, h2⟩, h3⟩, h4⟩, h5⟩, h6⟩

theorem agreeIn_iff {a b : Configuration Rat} {x : SameProperty} : SameProperty.equal a b x = true ↔ AgreeIn a b x := by
  cases x <;> simp [SameProperty.equal, AgreeIn]

theorem agreeIn_symm {a b : Configuration Rat} {x : SameProperty} : AgreeIn a b x ↔ AgreeIn b a x := by
  cases x <;> simp [AgreeIn, eq_comm]

theorem same_iff {o : CfgOrder} {a b : Configuration Rat} : o.same a b = true ↔ ∀ x ∈ o.sameProperties, AgreeIn a b x := by
  unfold CfgOrder.same
  simp only [List.all_eq_true, agreeIn_iff]

theorem ruledOut_iff {orders : List CfgOrder} {c : Configuration Rat} : ruledOut orders c = true ↔ CalledWorse orders c := by
  unfold ruledOut CalledWorse
  simp only [List.any_eq_true, matches_iff]

/-- Building the set from a descending queue gives the ascending list. -/
theorem setOfList_reverse : ∀ {S : List (Configuration Rat)}, Ascending S → setOfList S.reverse = S := by
  intro S
  induction S with
  | nil => intro _; rfl
  | cons x S ih =>
    intro h
    unfold Ascending at h
    rw [List.pairwise_cons] at h
    have h2 := ih h.2
    unfold setOfList at h2 ⊢
    rw [List.reverse_cons, List.foldl_append, h2]
    simp only [List.foldl_cons, List.foldl_nil]
    cases S with
    | nil => rfl
    | cons y S => simp [setInsert, h.1 y (by simp)]

/-- The predicate that selects what is tested. -/
def tested (verify : Bool) (orders : List CfgOrder) (S : List (Configuration Rat)) (c : Configuration Rat) : Bool :=
  verify || !ruledOut orders c || S.all (ruledOut orders)

theorem toTest_tested (orders : List CfgOrder) (S : List (Configuration Rat)) : ToTest orders S (S.filter (tested false orders S)) := by
  refine ⟨List.filter_sublist, ?_⟩
  intro c
  rw [List.mem_filter]
  refine and_congr_right fun _ => ?_
  unfold tested
  simp only [Bool.false_or, Bool.or_eq_true, Bool.not_eq_true', List.all_eq_true, ruledOut_iff]
  rw [← Bool.not_eq_true, ruledOut_iff]
  tauto

/-- `ToTest` determines the list. -/
theorem toTest_unique {orders : List CfgOrder} {S T T' : List (Configuration Rat)} (hS : S.Nodup) (h : ToTest orders S T)
    (h' : ToTest orders S T') : T = T' := by
  have key : ∀ T, ToTest orders S T → T = S.filter (tested false orders S) := by
    intro T hT
    have h1 := toTest_tested orders S
    have hp : T.Perm (S.filter (tested false orders S)) := by
      rw [List.perm_ext_iff_of_nodup (hT.sublist.nodup hS) (hS.filter _)]
      intro a
      rw [hT.mem, h1.mem]
    have h2 : T.filter (tested false orders S) = T := by
      rw [List.filter_eq_self]
      intro a ha
      exact (List.mem_filter.1 (hp.subset ha)).2
    have h3 := hT.sublist.filter (tested false orders S)
    rw [h2] at h3
    exact h3.eq_of_length hp.length_eq
  rw [key T h, key T' h']

/-- Queue and state inside of a phase. -/
def RuleInv (verify : Bool) (orders : List CfgOrder) (q : List (Configuration Rat)) (s : RuleState) : Prop :=
  s.active = orders ∧
    (verify = true ∨ s.rulesTooHarsh = true ∨ (Ascending q.reverse ∧ ∀ c ∈ q, ruledOut orders c = false))

theorem ruleOptimize_inv {verify : Bool} {orders : List CfgOrder} {q : List (Configuration Rat)} {s : RuleState}
    (h : RuleInv verify orders q s) : (s.optimize verify q).1 = (q, false) ∧ RuleInv verify orders q (s.optimize verify q).2 := by
  obtain ⟨h1, h2⟩ := h
  unfold RuleState.optimize
  simp only
  split_ifs with c1 c2
  · exact ⟨rfl, h1, .inr (.inl rfl)⟩
  · have hv : verify = false := by simpa using c2
    subst hv
    have hh : s.rulesTooHarsh = false := by
      simp only [Bool.or_eq_true, not_or, Bool.not_eq_true] at c1
      exact c1.1
    rcases h2 with h2 | h2 | ⟨h2, h3⟩
    · simp at h2
    · rw [hh] at h2; simp at h2
    · have hf : q.filter (fun c => !ruledOut s.active c) = q := by
        rw [List.filter_eq_self]
        intro a ha
        rw [h1, h3 a ha]; rfl
      have hset : (s.applyRules false q).searchSpace = q.reverse := by
        unfold RuleState.applyRules
        simp only [Bool.false_eq_true, if_false]
        rw [hf]
        have := setOfList_reverse h2
        rwa [List.reverse_reverse] at this
      rw [hset, List.reverse_reverse]
      exact ⟨rfl, h1, .inr (.inr ⟨h2, h3⟩)⟩
  · have hv : verify = true := by simpa using c2
    exact ⟨rfl, h1, .inl hv⟩

theorem ruleReset_spec {verify : Bool} {orders : List CfgOrder} {S : List (Configuration Rat)} (s : RuleState)
    (hS : Ascending S) :
    (s.reset verify orders S.reverse).1 = ((S.filter (tested verify orders S)).reverse, false) ∧
      RuleInv verify orders (S.filter (tested verify orders S)).reverse (s.reset verify orders S.reverse).2 := by
  cases verify with
  | true =>
    have hk : S.filter (tested true orders S) = S := by simp [tested]
    rw [hk]
    unfold RuleState.reset
    exact ruleOptimize_inv ⟨rfl, .inl rfl⟩
  | false =>
    unfold RuleState.reset RuleState.optimize
    simp only
    have hset : ∀ s' : RuleState, s'.active = orders →
        (s'.applyRules false S.reverse).searchSpace = S.filter (fun c => !ruledOut orders c) := by
      intro s' hs'
      unfold RuleState.applyRules
      simp only [Bool.false_eq_true, if_false]
      rw [hs', List.filter_reverse]
      exact setOfList_reverse (hS.filter _)
    have htime : ∀ s' : RuleState, (s'.applyRules false S.reverse).tuningTime = s'.tuningTime := fun _ => rfl
    have hharsh : ∀ s' : RuleState, (s'.applyRules false S.reverse).rulesTooHarsh = s'.rulesTooHarsh := fun _ => rfl
    simp only [htime, hharsh]
    rw [hset _ rfl]
    simp only [Bool.false_or, decide_true, Bool.and_true, Bool.not_false, if_true]
    by_cases he : S.filter (fun c => !ruledOut orders c) = []
    · have hall : S.all (ruledOut orders) = true := by
        rw [List.filter_eq_nil_iff] at he
        rw [List.all_eq_true]
        intro x hx
        have := he x hx
        simpa using this
      have hk : S.filter (tested false orders S) = S := by
        rw [List.filter_eq_self]
        intro a _
        simp [tested, hall]
      rw [if_pos (by rw [he]; rfl), hk]
      exact ⟨rfl, rfl, .inr (.inl rfl)⟩
    · have hall : S.all (ruledOut orders) = false := by
        rw [← Bool.not_eq_true]
        intro hall
        apply he
        rw [List.filter_eq_nil_iff]
        rw [List.all_eq_true] at hall
        intro a ha
        simp [hall a ha]
      have hk : S.filter (tested false orders S) = S.filter (fun c => !ruledOut orders c) := by
        apply List.filter_congr
        intro a _
        simp [tested, hall]
      rw [if_neg (by simpa using he), hk]
      refine ⟨rfl, rfl, .inr (.inr ⟨?_, ?_⟩)⟩
      · rw [List.reverse_reverse]; exact hS.filter _
      · intro c hc
        rw [List.mem_reverse, List.mem_filter] at hc
        simpa using hc.2

/-- Rule-based tuning as the only strategy. -/
theorem ruleStrategy_narrows {cfg : TunerCfg RuleState (Configuration Rat)} {verify : Bool} {orders : Nat → List CfgOrder}
    (hst : cfg.strategies = [ruleStrategy verify orders]) {v : Configuration Rat → Verdict} {S0 : List (Configuration Rat)}
    (hasc : Ascending S0) {p : Nat} (htwo : TwoCompatible v (S0.filter (tested verify (orders p) S0))) :
    Narrows cfg v S0 p (tested verify (orders p) S0) false (RuleInv verify (orders p)) := by
  have hsub : ∀ q q' s, RuleInv verify (orders p) q s → q'.Sublist q → RuleInv verify (orders p) q' s := by
    rintro q q' s ⟨h1, h2⟩ hq
    refine ⟨h1, ?_⟩
    rcases h2 with h2 | h2 | ⟨h2, h3⟩
    · exact .inl h2
    · exact .inr (.inl h2)
    · exact .inr (.inr ⟨List.Pairwise.sublist (List.reverse_sublist.2 hq) h2, fun c hc => h3 c (hq.subset hc)⟩)
  refine ⟨?_, ?_, ?_, hsub, ?_, ?_⟩
  · intro S s it ev hS
    have hSasc : Ascending S := by
      obtain ⟨f, rfl, -⟩ := hS
      exact hasc.filter _
    -- what is tested of the remaining space is the same
    have hk : S.filter (tested verify (orders p) S) = S.filter (tested verify (orders p) S0) := by
      have hall : S.all (ruledOut (orders p)) = S0.all (ruledOut (orders p)) ∨ verify = true := by
        cases verify with
        | true => exact .inr rfl
        | false =>
          left
          by_cases h0 : S0.all (ruledOut (orders p)) = true
          · rw [h0]
            obtain ⟨f, rfl, -⟩ := hS
            rw [List.all_eq_true] at h0 ⊢
            exact fun x hx => h0 x (List.mem_filter.1 hx).1
          · have h0' : S0.all (ruledOut (orders p)) = false := by simpa using h0
            rw [h0', ← Bool.not_eq_true]
            intro hc
            obtain ⟨a, ha, -⟩ := (hS.pick false (tested false (orders p) S0)).two htwo
            obtain ⟨ha1, ha2⟩ := List.mem_filter.1 ha
            rw [List.all_eq_true] at hc
            simp [tested, h0', hc a ha1] at ha2
      apply List.filter_congr
      intro c _
      unfold tested
      rcases hall with h | h
      · rw [h]
      · simp [h]
    obtain ⟨r1, r2⟩ := ruleReset_spec (verify := verify) (orders := orders p) s hSasc
    rw [hk] at r1 r2
    have hne : (S.filter (tested verify (orders p) S0)).reverse.isEmpty = false := by
      obtain ⟨a, ha, -⟩ := (hS.pick false (tested verify (orders p) S0)).two htwo
      rw [List.isEmpty_reverse]
      cases hc : S.filter (tested verify (orders p) S0) with
      | nil => rw [pick, hc] at ha; simp at ha
      | cons => rfl
    rw [hst]
    have hr : ((ruleStrategy verify orders).reset s it p S.reverse ev).1 = _ := r1
    simp only [runReset, hr]
    simp only [hne, Bool.and_false, Bool.false_eq_true, if_false]
    exact ⟨rfl, r2⟩
  · intro q s ev h
    obtain ⟨r1, r2⟩ := ruleOptimize_inv h
    rw [hst]
    have hr : ((ruleStrategy verify orders).optimize s q ev).1 = _ := r1
    simp only [runOptimize, hr]
    simp only [ite_self]
    exact ⟨trivial, r2⟩
  · intro q s ev h
    obtain ⟨r1, r2⟩ := ruleOptimize_inv h
    rw [hst]
    have hr : ((ruleStrategy verify orders).optimize s q ev).1 = _ := r1
    simp only [runOptimizeRaw, hr]
    exact ⟨trivial, r2⟩
  · intro q s c e h
    rw [hst]
    exact h
  · intro q s c b h
    rw [hst]
    exact h

end Verif
