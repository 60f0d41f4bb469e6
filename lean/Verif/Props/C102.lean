import Verif.Spec.SearchSpace
import Verif.Props.C101
/-!
# C102 — The search space consists of all valid combinations of the allowed options

* `C102_search_space`: what is tuned over is exactly the set of combinations of allowed options that can be executed, each once, in the order of
  configurations; an exception is thrown iff there are none, if an interval of cell size factors is passed, or for the
  interaction type `all`.
* `C102_compatible_iff_executable`: the tables used to filter combinations agree with what the traversals accept.
* `C102_always_applicable`: with cells of at least the interaction length and four cells per dimension, every configuration of the
  search space is accepted by its traversal.
* **Violation** `C102_violated_interval…`: for an interval of cell size factors `AutoPas::init` multiplies cutoff and skin instead of adding them.
-/
namespace Verif
open Spec

/-! ### Sets -/

theorem setInsert_ascending {x : Configuration Rat} : ∀ {l : List (Configuration Rat)}, Ascending l → Ascending (setInsert x l) := by
  intro l
  induction l with
  | nil => intro _; simp [setInsert, Ascending]
  | cons y l ih =>
    intro h
    unfold Ascending at h
    rw [List.pairwise_cons] at h
    unfold setInsert
    split_ifs with h1 h2
    · unfold Ascending
      rw [List.pairwise_cons, List.pairwise_cons]
      refine ⟨?_, h⟩
      intro z hz
      rcases List.mem_cons.1 hz with rfl | hz
      · exact h1
      · exact C43_less_is_strict_total_order.2.1 _ _ _ h1 (h.1 z hz)
    · unfold Ascending
      rw [List.pairwise_cons]
      refine ⟨?_, ih h.2⟩
      intro z hz
      rcases mem_setInsert.1 hz with rfl | hz
      · exact h2
      · exact h.1 z hz
    · unfold Ascending
      rw [List.pairwise_cons]
      exact h

theorem setOfList_ascending (l : List (Configuration Rat)) : Ascending (setOfList l) := by
  have key : ∀ (l s : List (Configuration Rat)), Ascending s → Ascending (l.foldl (fun s x => setInsert x s) s) := by
    intro l
    induction l with
    | nil => intro s h; exact h
    | cons x l ih => intro s h; exact ih _ (setInsert_ascending h)
  exact key l [] List.Pairwise.nil

theorem mem_setOfList {l : List (Configuration Rat)} {c : Configuration Rat} : c ∈ setOfList l ↔ c ∈ l := by
  unfold setOfList
  rw [mem_foldl_setInsert]
  simp

/-! ### The tables -/

theorem mem_travs (t : Trav) : t ∈ Trav.values := by cases t <;> decide
theorem mem_loadEsts (e : LoadEst) : e ∈ LoadEst.values := by cases e <;> decide

theorem compatible_pairwise (t : Trav) (c : Cont) :
    ((compatibleTraversals c .pairwise).any fun ts => ts.contains t) = true ↔ RunsOn .pairwise t c := by
  have key : ∀ c ∈ Cont.values, ∀ t ∈ Trav.values, ((compatibleTraversals c .pairwise).any fun ts => ts.contains t) =
      decide (home t = c ∨ (c = .linkedCellsReferences ∧ home t = .linkedCells)) := by decide +kernel
  have hc : c ∈ Cont.values := by cases c <;> decide
  rw [key c hc t (mem_travs t), decide_eq_true_iff]
  rfl

theorem compatible_triwise (t : Trav) (c : Cont) :
    ((compatibleTraversals c .triwise).any fun ts => ts.contains t) = true ↔ RunsOn .triwise t c ∧ generatesTraversal .triwise t = true := by
  have key : ∀ c ∈ Cont.values, ∀ t ∈ Trav.values, ((compatibleTraversals c .triwise).any fun ts => ts.contains t) =
      decide (home t = c ∧ generatesTraversal .triwise t = true) := by decide +kernel
  have hc : c ∈ Cont.values := by cases c <;> decide
  rw [key c hc t (mem_travs t), decide_eq_true_iff]
  rfl

/-- A domain in which every traversal can work that can work anywhere. -/
def goodInfo : TravInfo := ⟨⟨4, 4, 4⟩, 1, ⟨1, 1, 1⟩⟩

theorem executable_iff (it : IxType) (t : Trav) (d : Layout) (n : Bool) :
    Executable it t d n ↔ generatesTraversal it t = true ∧ t.isApplicable goodInfo it d n = true := by
  constructor
  · rintro ⟨h1, info, -, -, -, -, -, h⟩
    refine ⟨h1, ?_⟩
    revert h h1
    cases t <;> cases it <;> cases d <;> cases n <;> simp [Trav.isApplicable, generatesTraversal] <;> intros <;> decide +kernel
  · rintro ⟨h1, h⟩
    exact ⟨h1, goodInfo, by decide +kernel, by decide +kernel, by decide, by decide, by decide, h⟩

instance (c : Cont) (t : Trav) (e : LoadEst) : Decidable (Offers c t e) :=
  decidable_of_iff ((c = .linkedCells ∧ t = .lc_sliced_balanced ∧ e ≠ .neighborListLength) ∨ (c = .verletListsCells ∧ t = .vlc_sliced_balanced) ∨
    (c = .verletClusterLists ∧ t = .vcl_sliced_balanced ∧ e ≠ .squaredParticlesPerCell)) (by
    constructor
    · rintro (⟨rfl, rfl, h⟩ | ⟨rfl, rfl⟩ | ⟨rfl, rfl, h⟩) <;> cases e <;> first | constructor | exact absurd rfl h
    · intro h; cases h <;> simp)

theorem uses_iff {c : Cont} {t : Trav} {e : LoadEst} (h : home t = c ∨ (c = .linkedCellsReferences ∧ home t = .linkedCells)) :
    (usesLoadEstimator t && (compatibleLoadEstimators c).contains e) = true ↔ Offers c t e := by
  have key : ∀ c ∈ Cont.values, ∀ t ∈ Trav.values, ∀ e ∈ LoadEst.values, (home t = c ∨ (c = .linkedCellsReferences ∧ home t = .linkedCells)) →
      ((usesLoadEstimator t && (compatibleLoadEstimators c).contains e) = true ↔ Offers c t e) := by decide +kernel
  exact key c (by cases c <;> decide) t (mem_travs t) e (mem_loadEsts e) h

theorem mem_applicable {c : Cont} {t : Trav} {e : LoadEst} {les : List LoadEst}
    (h : home t = c ∨ (c = .linkedCellsReferences ∧ home t = .linkedCells)) :
    e ∈ applicableLoadEstimators c t les ↔ (e ∈ les ∧ Offers c t e) ∨ (e = .none ∧ ∀ e' ∈ les, ¬ Offers c t e') := by
  unfold applicableLoadEstimators
  by_cases hu : usesLoadEstimator t = true
  · have ho : ∀ x, (compatibleLoadEstimators c).contains x = true ↔ Offers c t x := by
      intro x
      rw [← uses_iff h, hu, Bool.true_and]
    rw [if_pos hu]
    simp only
    split_ifs with he
    · rw [List.isEmpty_iff, List.filter_eq_nil_iff] at he
      have he' : ∀ x ∈ les, ¬ Offers c t x := fun x hx hx2 => he x hx ((ho x).2 hx2)
      constructor
      · intro hm
        exact .inr ⟨by simpa using hm, he'⟩
      · rintro (⟨h1, h2⟩ | ⟨h1, -⟩)
        · exact absurd h2 (he' e h1)
        · simp [h1]
    · rw [List.isEmpty_iff, List.filter_eq_nil_iff] at he
      push Not at he
      obtain ⟨x, hx, hx2⟩ := he
      have hx3 : Offers c t x := (ho x).1 (by simpa using hx2)
      rw [List.mem_filter, ho]
      constructor
      · intro hh; exact .inl hh
      · rintro (hh | ⟨-, hh⟩)
        · exact hh
        · exact absurd hx3 (hh x hx)
  · rw [if_neg hu]
    have ho : ∀ x, ¬ Offers c t x := by
      intro x hx
      have := (uses_iff h).2 hx
      simp [hu] at this
    constructor
    · intro hm; exact .inr ⟨by simpa using hm, fun x _ => ho x⟩
    · rintro (⟨-, hh⟩ | ⟨hh, -⟩)
      · exact absurd hh (ho e)
      · simp [hh]

theorem runsOn_form {it : IxType} {t : Trav} {c : Cont} (h : RunsOn it t c) :
    home t = c ∨ (c = .linkedCellsReferences ∧ home t = .linkedCells) := by
  cases it
  · exact h
  · exact .inl h
  · exact h.elim

/-- **C102.** The filter accepts a combination of options iff the container offers what the traversal needs, the traversal can be generated for
functors of this type and accepts the data layout and newton 3 option in some domain, and the load estimator is one that both can use
(or `none`). -/
theorem C102_compatible_iff_executable (o : Options) : hasCompatibleValues o = some true ↔
    RunsOn o.interactionType o.traversal o.container ∧ Executable o.interactionType o.traversal o.dataLayout o.newton3 ∧
      (Offers o.container o.traversal o.loadEstimator ∨ o.loadEstimator = .none) := by
  obtain ⟨c, f, t, e, d, n, it⟩ := o
  simp only
  have hle : RunsOn it t c → ((applicableLoadEstimators c t LoadEst.values).contains e = true ↔ (Offers c t e ∨ e = .none)) := by
    intro h
    rw [List.contains_iff_mem, mem_applicable (runsOn_form h)]
    constructor
    · rintro (h1 | h1)
      · exact .inl h1.2
      · exact .inr h1.1
    · rintro (h1 | rfl)
      · exact .inl ⟨mem_loadEsts e, h1⟩
      · by_cases hn : Offers c t .none
        · exact .inl ⟨mem_loadEsts _, hn⟩
        · refine .inr ⟨rfl, ?_⟩
          intro e' _ he'
          exact hn (by cases he' <;> constructor)
  -- the restrictions of the traversals
  have hrest : ∀ it, generatesTraversal it t = true → ((!(n && onlyNewton3Disabled.contains t) && !(!n && onlyNewton3Enabled.contains t) &&
      !(decide (d = .aos) && onlySoA.contains t) && !(decide (d = .soa) && onlyAoS.contains t)) = true ↔ t.isApplicable goodInfo it d n = true) := by
    intro it hg
    revert hg
    cases t <;> cases it <;> cases d <;> cases n <;> first | (intro hg; exact absurd hg (by decide)) | (intro _; decide +kernel)
  rw [executable_iff]
  unfold hasCompatibleValues
  simp only
  cases it with
  | pairwise =>
    have hp := compatible_pairwise t c
    revert hp
    cases hct : compatibleTraversals c .pairwise with
    | none => intro hp; simp only [Option.any_none, Bool.false_eq_true, false_iff] at hp; simp [hp]
    | some ts =>
      intro hp
      simp only [Option.any_some] at hp
      simp only [Option.map_some, Option.some.injEq]
      rw [Bool.and_assoc, Bool.and_assoc, Bool.and_assoc, Bool.and_assoc, Bool.and_eq_true, Bool.and_eq_true, hp]
      refine and_congr_right fun hr => ?_
      rw [hle hr, ← Bool.and_assoc, ← Bool.and_assoc, hrest .pairwise rfl]
      simp only [generatesTraversal, true_and]
      exact and_comm
  | triwise =>
    have hp := compatible_triwise t c
    revert hp
    cases hct : compatibleTraversals c .triwise with
    | none => intro hp; simp only [Option.any_none, Bool.false_eq_true, false_iff] at hp; simp only [Option.map_none]; constructor
              · intro h; cases h
              · rintro ⟨h1, ⟨h2, -⟩, -⟩; exact absurd ⟨h1, h2⟩ hp
    | some ts =>
      intro hp
      simp only [Option.any_some] at hp
      simp only [Option.map_some, Option.some.injEq]
      rw [Bool.and_assoc, Bool.and_assoc, Bool.and_assoc, Bool.and_assoc, Bool.and_eq_true, Bool.and_eq_true, hp]
      constructor
      · rintro ⟨⟨h1, h2⟩, h3, h4⟩
        rw [← Bool.and_assoc, ← Bool.and_assoc, hrest .triwise h2] at h4
        exact ⟨h1, ⟨h2, h4⟩, (hle h1).1 h3⟩
      · rintro ⟨h1, ⟨h2, h4⟩, h3⟩
        refine ⟨⟨h1, h2⟩, (hle h1).2 h3, ?_⟩
        rw [← Bool.and_assoc, ← Bool.and_assoc, hrest .triwise h2]
        exact h4
  | all => simp [compatibleTraversals, RunsOn]

/-! ### The search space -/

theorem mem_containerConfigs {travs : List Trav} {les : List LoadEst} {lays : List Layout} {n3s : List Bool} {fs : List Rat} {it : IxType}
    {c : Cont} {l : List Options} (h : containerConfigs travs les lays n3s fs it c = some l) (o : Options) :
    o ∈ l ↔ o.container = c ∧ o.traversal ∈ travs ∧ o.dataLayout ∈ lays ∧ o.newton3 ∈ n3s ∧ o.cellSizeFactor ∈ fs ∧ o.interactionType = it ∧
      o.loadEstimator ∈ applicableLoadEstimators c o.traversal les ∧ hasCompatibleValues o = some true := by
  unfold containerConfigs at h
  cases hct : compatibleTraversals c it with
  | none => rw [hct] at h; cases h
  | some ts =>
    rw [hct] at h
    simp only [Option.map_some, Option.some.injEq] at h
    subst h
    obtain ⟨oc, f, t, e, d, n, oit⟩ := o
    simp only [List.mem_filter, candidates, List.mem_flatMap, List.mem_map, Options.mk.injEq, beq_iff_eq]
    constructor
    · rintro ⟨⟨t', ⟨h1, h2⟩, f', hf, e', he, d', hd, n', hn, rfl, rfl, rfl, rfl, rfl, rfl, rfl⟩, h3⟩
      exact ⟨rfl, h1, hd, hn, hf, rfl, he, h3⟩
    · rintro ⟨rfl, h1, hd, hn, hf, rfl, he, h3⟩
      refine ⟨⟨t, ⟨h1, ?_⟩, f, hf, e, he, d, hd, n, hn, rfl, rfl, rfl, rfl, rfl, rfl, rfl⟩, h3⟩
      unfold hasCompatibleValues at h3
      simp only [hct, Option.map_some, Option.some.injEq, Bool.and_eq_true] at h3
      exact h3.1.1.1.1.1

theorem mapM_some {α β : Type} {f : α → Option β} : ∀ {l : List α} {r : List β}, l.mapM f = some r →
    ∀ b, b ∈ r ↔ ∃ a ∈ l, f a = some b := by
  intro l
  induction l with
  | nil => intro r h b; simp at h; subst h; simp
  | cons a l ih =>
    intro r h b
    rw [List.mapM_cons] at h
    cases hf : f a with
    | none => rw [hf] at h; simp at h
    | some x =>
      cases hl : l.mapM f with
      | none => rw [hf, hl] at h; simp at h
      | some r' =>
        rw [hf, hl] at h
        simp only [Option.bind_eq_bind, Option.bind_some, Option.pure_def, Option.some.injEq] at h
        subst h
        rw [List.mem_cons, ih hl]
        constructor
        · rintro (rfl | ⟨y, hy, h2⟩)
          · exact ⟨a, by simp, hf⟩
          · exact ⟨y, by simp [hy], h2⟩
        · rintro ⟨y, hy, h2⟩
          rcases List.mem_cons.1 hy with rfl | hy
          · rw [hf] at h2; exact .inl (Option.some.inj h2).symm
          · exact .inr ⟨y, hy, h2⟩

theorem mapM_isSome {α β : Type} {f : α → Option β} : ∀ {l : List α}, (∀ a ∈ l, (f a).isSome) → ∃ r, l.mapM f = some r := by
  intro l
  induction l with
  | nil => intro _; exact ⟨[], rfl⟩
  | cons a l ih =>
    intro h
    obtain ⟨r, hr⟩ := ih fun x hx => h x (by simp [hx])
    obtain ⟨x, hx⟩ := Option.isSome_iff_exists.1 (h a (by simp))
    exact ⟨x :: r, by rw [List.mapM_cons, hx, hr]; rfl⟩

theorem config_injective : Function.Injective Options.config := by
  rintro ⟨c, f, t, e, d, n, it⟩ ⟨c', f', t', e', d', n', it'⟩ h
  unfold Options.config at h
  simp only [Configuration.mk.injEq] at h
  obtain ⟨h1, h2, h3, h4, h5, h6, h7⟩ := h
  have i1 : c = c' := (List.idxOf_inj (by cases c <;> decide)).1 h1
  have i2 : t = t' := (List.idxOf_inj (mem_travs t)).1 h2
  have i3 : e = e' := (List.idxOf_inj (mem_loadEsts e)).1 h3
  have i4 : d = d' := by cases d <;> cases d' <;> first | rfl | (simp [Layout.value] at h4)
  have i5 : n = n' := by cases n <;> cases n' <;> first | rfl | (simp at h5)
  have i7 : it = it' := by cases it <;> cases it' <;> first | rfl | (simp [IxType.value] at h7)
  subst i1 i2 i3 i4 i5 h6 i7
  rfl

/-- The configurations of the loops are the valid ones. -/
theorem mem_all {a : AllowedOptions} {ls : List (List Options)}
    (h : a.containers.mapM (containerConfigs a.traversals a.loadEstimators a.dataLayouts a.newton3 a.cellSizeFactors a.interactionType) = some ls)
    (o : Options) : o ∈ ls.flatten ↔ Valid a o := by
  rw [List.mem_flatten]
  constructor
  · rintro ⟨l, hl, ho⟩
    obtain ⟨c, hc, hcl⟩ := (mapM_some h l).1 hl
    obtain ⟨rfl, h2, h3, h4, h5, h6, h7, h8⟩ := (mem_containerConfigs hcl o).1 ho
    obtain ⟨r1, r2, -⟩ := (C102_compatible_iff_executable o).1 h8
    exact ⟨hc, h2, h3, h4, h5, h6, r1, r2, (mem_applicable (runsOn_form r1)).1 h7⟩
  · intro hv
    have hsome : (containerConfigs a.traversals a.loadEstimators a.dataLayouts a.newton3 a.cellSizeFactors a.interactionType o.container).isSome := by
      unfold containerConfigs
      have := hv.runs
      rw [hv.interactionType] at this
      cases hi : a.interactionType with
      | pairwise => cases o.container <;> rfl
      | triwise => cases o.container <;> rfl
      | all => rw [hi] at this; exact this.elim
    obtain ⟨l, hl⟩ := Option.isSome_iff_exists.1 hsome
    refine ⟨l, (mapM_some h l).2 ⟨o.container, hv.container, hl⟩, (mem_containerConfigs hl o).2 ?_⟩
    refine ⟨rfl, hv.traversal, hv.dataLayout, hv.newton3, hv.cellSizeFactor, hv.interactionType,
      (mem_applicable (runsOn_form hv.runs)).2 hv.loadEstimator, (C102_compatible_iff_executable o).2 ⟨hv.runs, hv.executable, ?_⟩⟩
    rcases hv.loadEstimator with h1 | h1
    · exact .inl h1.2
    · exact .inr h1.1

/-- **C102.** For finite sets of cell size factors: if a valid combination exists, the search space is the set of all valid combinations, without
repetition, in the order of configurations. Otherwise an exception is thrown. There is no third possibility. -/
theorem C102_search_space (a : AllowedOptions) :
    ((∃ o, Valid a o) → ∃ S, cartesianProduct a.containers a.traversals a.loadEstimators a.dataLayouts a.newton3 (.finite a.cellSizeFactors)
        a.interactionType = .ok S ∧ S ≠ [] ∧ Ascending S ∧ S.Nodup ∧ ∀ c, c ∈ S ↔ ∃ o, Valid a o ∧ o.config = c) ∧
    ((¬ ∃ o, Valid a o) → cartesianProduct a.containers a.traversals a.loadEstimators a.dataLayouts a.newton3 (.finite a.cellSizeFactors)
        a.interactionType = .throws) := by
  unfold cartesianProduct
  simp only
  cases hm : a.containers.mapM (containerConfigs a.traversals a.loadEstimators a.dataLayouts a.newton3 a.cellSizeFactors a.interactionType) with
  | none =>
    refine ⟨?_, fun _ => rfl⟩
    rintro ⟨o, hv⟩
    exfalso
    have hsome : ∀ c ∈ a.containers, (containerConfigs a.traversals a.loadEstimators a.dataLayouts a.newton3 a.cellSizeFactors
        a.interactionType c).isSome := by
      intro c _
      have := hv.runs
      rw [hv.interactionType] at this
      unfold containerConfigs
      cases hi : a.interactionType with
      | pairwise => cases c <;> rfl
      | triwise => cases c <;> rfl
      | all => rw [hi] at this; exact this.elim
    obtain ⟨r, hr⟩ := mapM_isSome hsome
    rw [hm] at hr
    cases hr
  | some ls =>
    simp only
    have hmem : ∀ c, c ∈ setOfList (ls.flatten.map Options.config) ↔ ∃ o, Valid a o ∧ o.config = c := by
      intro c
      rw [mem_setOfList, List.mem_map]
      simp only [mem_all hm]
    constructor
    · rintro ⟨o, hv⟩
      have hne : setOfList (ls.flatten.map Options.config) ≠ [] := List.ne_nil_of_mem ((hmem _).2 ⟨o, hv, rfl⟩)
      refine ⟨setOfList (ls.flatten.map Options.config), ?_, hne, setOfList_ascending _, Ascending.nodup (setOfList_ascending _), hmem⟩
      rw [if_neg (by simpa using hne)]
    · intro hno
      rw [if_pos]
      rw [List.isEmpty_iff, List.eq_nil_iff_forall_not_mem]
      intro c hc
      obtain ⟨o, ho, -⟩ := (hmem c).1 hc
      exact hno ⟨o, ho⟩

/-- Different valid combinations are different configurations. -/
theorem C102_distinct {a : AllowedOptions} {o o' : Options} (_ : Valid a o) (_ : Valid a o') (h : o.config = o'.config) : o = o' := config_injective h

/-- An interval of cell size factors is rejected, whatever else is allowed. -/
theorem C102_interval_rejected (conts : List Cont) (travs : List Trav) (les : List LoadEst) (lays : List Layout) (n3s : List Bool) (lo hi : Rat)
    (it : IxType) : cartesianProduct conts travs les lays n3s (.interval lo hi) it = .throws := rfl

theorem ceil_one {il l : Rat} (h1 : 0 < il) (h2 : il ≤ l) : ⌈il / l⌉ = 1 := by
  have hl : 0 < l := lt_of_lt_of_le h1 h2
  rw [Int.ceil_eq_iff]
  constructor
  · simpa using div_pos h1 hl
  · simpa using (div_le_one hl).2 h2

/-- **C102.** Every valid combination is accepted in every domain whose cells (towers) have at least the interaction length and that has at least
four cells in every dimension. -/
theorem C102_always_applicable {a : AllowedOptions} {o : Options} (hv : Valid a o) {info : TravInfo} (hil : 0 < info.interactionLength)
    (hlen : info.interactionLength ≤ info.minLength) (hx : 4 ≤ info.cellsPerDim.x) (hy : 4 ≤ info.cellsPerDim.y) (hz : 4 ≤ info.cellsPerDim.z) :
    o.traversal.isApplicable info o.interactionType o.dataLayout o.newton3 = true := by
  obtain ⟨-, hgood⟩ := (executable_iff _ _ _ _).1 hv.executable
  have hl : info.interactionLength ≤ info.cellLength.x ∧ info.interactionLength ≤ info.cellLength.y ∧ info.interactionLength ≤ info.cellLength.z := by
    unfold TravInfo.minLength at hlen
    rw [le_min_iff, le_min_iff] at hlen
    exact ⟨hlen.1.1, hlen.1.2, hlen.2⟩
  have hov : overlapOf info.interactionLength info.cellLength = ⟨1, 1, 1⟩ := by
    unfold overlapOf
    rw [ceil_one hil hl.1, ceil_one hil hl.2.1, ceil_one hil hl.2.2]
  have hmin : min (min info.cellsPerDim.x info.cellsPerDim.y) info.cellsPerDim.z > 3 := by
    simp only [gt_iff_lt, lt_min_iff]; omega
  have hlong : 4 ≤ info.longest := by
    unfold TravInfo.longest V3.get
    split_ifs <;> assumption
  have ho1 : ∀ k, (V3.get (⟨1, 1, 1⟩ : V3 Int) k) = 1 := by intro k; unfold V3.get; split_ifs <;> rfl
  have hlap : ∀ f, info.overlapLongestAxis f = if f then 1 else 2 := by
    intro f
    unfold TravInfo.overlapLongestAxis
    rw [hov, ho1, one_mul]
  have hs : ∀ f, info.sliced f = true := by
    intro f
    unfold TravInfo.sliced
    rw [hlap, decide_eq_true_iff]
    cases f
    · simp only [Bool.false_eq_true, if_false]; omega
    · simp only [if_true]; omega
  have hs2 : ∀ f, info.slicedC02 f = true := by
    intro f
    unfold TravInfo.slicedC02
    rw [hlap, decide_eq_true_iff]
    cases f
    · simp only [Bool.false_eq_true, if_false]; omega
    · simp only [if_true]; omega
  revert hgood
  cases o.traversal <;> simp [Trav.isApplicable, hs, hs2, hov, hmin, hlen] <;> intros <;> simp_all

/-- **C102.** In thin domains: along the axis with the most cells (`n` cells of length `l`), `lc_sliced` and `lc_sliced_balanced` are accepted if and only if
the interaction length fits into all cells but one, `lc_sliced_c02` if and only if it fits into all cells. -/
theorem C102_slices_fit {info : TravInfo} {n : Nat} {l : Rat} (hn : n = info.cellsPerDim.get (longestAxis info.cellsPerDim))
    (hl : l = info.cellLength.get (longestAxis info.cellsPerDim)) (hpos : 0 < l) (hil : 0 < info.interactionLength) (it : IxType) (d : Layout) (n3 : Bool) :
    (Trav.isApplicable info it d n3 .lc_sliced = true ↔ info.interactionLength ≤ (n - 1) * l) ∧
    (Trav.isApplicable info it d n3 .lc_sliced_balanced = true ↔ info.interactionLength ≤ (n - 1) * l) ∧
    (Trav.isApplicable info it d n3 .lc_sliced_c02 = true ↔ info.interactionLength ≤ n * l) := by
  have ho : info.overlapLongestAxis true = ⌈info.interactionLength / l⌉ := by
    unfold TravInfo.overlapLongestAxis
    simp only [if_true, mul_one]
    rw [hl]
    unfold overlapOf V3.get
    split_ifs <;> rfl
  have hge : 1 ≤ ⌈info.interactionLength / l⌉ := Int.one_le_ceil_iff.2 (div_pos hil hpos)
  have h1 : info.sliced true = true ↔ info.interactionLength ≤ (n - 1) * l := by
    unfold TravInfo.sliced
    rw [decide_eq_true_iff, ho, show info.longest = n from hn.symm]
    have e : (0 < (n : Int) / (⌈info.interactionLength / l⌉ + 1)) ↔ ⌈info.interactionLength / l⌉ ≤ (n : Int) - 1 := by
      rw [Int.lt_iff_add_one_le, zero_add, Int.le_ediv_iff_mul_le (by omega)]
      omega
    rw [e, Int.ceil_le, div_le_iff₀ hpos]
    push_cast
    rfl
  have h2 : info.slicedC02 true = true ↔ info.interactionLength ≤ n * l := by
    unfold TravInfo.slicedC02
    rw [decide_eq_true_iff, ho, show info.longest = n from hn.symm, ge_iff_le, Int.ceil_le, div_le_iff₀ hpos]
    push_cast
    rfl
  exact ⟨h1, h1, h2⟩

/-- Two cells of length 1 and interaction length 1: both fit; with interaction length 2 only `lc_sliced_c02`. -/
example : Trav.isApplicable ⟨⟨2, 2, 2⟩, 1, ⟨1, 1, 1⟩⟩ .pairwise .aos false .lc_sliced = true ∧
    Trav.isApplicable ⟨⟨2, 2, 2⟩, 2, ⟨1, 1, 1⟩⟩ .pairwise .aos false .lc_sliced = false ∧
    Trav.isApplicable ⟨⟨2, 2, 2⟩, 2, ⟨1, 1, 1⟩⟩ .pairwise .aos false .lc_sliced_c02 = true := by decide +kernel

/-! ### The call from `AutoPas::init` -/

/-- Number of cells along a box length (CellBlock3D.h:382, without the minimum of one). -/
def cellsAlong (length interactionLength csf : Rat) : Int := ⌊length / (interactionLength * csf)⌋

/-- Finite sets of cell size factors are passed on unchanged. -/
theorem C102_init_finite (cutoff skin : Rat) (freq : Nat) (bMin bMax : V3 Rat) (l : List Rat) :
    initCellSizeFactors cutoff skin freq bMin bMax (.finite l) = .finite l := rfl

/-- **Violation**: `AutoPas::init` computes the interaction length as cutoff times skin instead of cutoff plus skin. Here the cutoff is 10, the skin
10 in total, the box has length 60 and cell size factors between 1 and 2 are allowed: there are useful ones (1 gives 3 cells, 3/2 gives 2), but
none is found, and so `init` throws although every option is allowed. -/
theorem C102_violated_interval_empty :
    initCellSizeFactors 10 1 10 ⟨0, 0, 0⟩ ⟨60, 60, 60⟩ (.interval 1 2) = .finite [] ∧
    cellsAlong 60 (10 + 1 * 10) 1 = 3 ∧ cellsAlong 60 (10 + 1 * 10) (3 / 2) = 2 ∧
    cartesianProduct Cont.values Trav.values LoadEst.values [.aos, .soa] [false, true]
      (initCellSizeFactors 10 1 10 ⟨0, 0, 0⟩ ⟨60, 60, 60⟩ (.interval 1 2)) .pairwise = .throws := by
  refine ⟨by decide +kernel, by decide +kernel, by decide +kernel, ?_⟩
  have h : initCellSizeFactors 10 1 10 ⟨0, 0, 0⟩ ⟨60, 60, 60⟩ (.interval 1 2) = .finite [] := by decide +kernel
  rw [h]
  refine (C102_search_space ⟨Cont.values, Trav.values, LoadEst.values, [.aos, .soa], [false, true], [], .pairwise⟩).2 ?_
  rintro ⟨o, ho⟩
  exact absurd ho.cellSizeFactor (by simp)

/-- **Violation**: cutoff 1, skin 1/10 in total, box length 10, cell size factors between 1 and 2: 51 of them are taken for relevant, but they
lead to only six different numbers of cells. -/
theorem C102_violated_interval_redundant :
    ∃ l, initCellSizeFactors 1 (1 / 100) 10 ⟨0, 0, 0⟩ ⟨10, 10, 10⟩ (.interval 1 2) = .finite l ∧ l.length = 51 ∧ l.Nodup ∧
      ((l.map (cellsAlong 10 (1 + 1 / 100 * 10))).dedup).length = 6 := by
  refine ⟨calculateRelevantCsfs 1 2 (1 / 10) 10, by decide +kernel, by decide +kernel, by decide +kernel, by decide +kernel⟩

/-- Linked cells with references and pairwise Verlet lists implement load estimates for their balanced traversals
(LinkedCellsReferences.h:131, VerletListsCells.h:72-97), but the search space never contains them. -/
theorem C102_never_balanced (a : AllowedOptions) (o : Options) (hv : Valid a o)
    (hc : o.container = .linkedCellsReferences ∨ o.container = .pairwiseVerletLists) : o.loadEstimator = .none := by
  rcases hv.loadEstimator with ⟨-, h⟩ | h
  · rcases hc with hc | hc <;> (rw [hc] at h; cases h)
  · exact h.1

/-! ### Examples -/

/-- Linked cells and the octree, three traversals, both layouts and newton 3 options, two cell size factors, no load estimator allowed. -/
def exAllowed : AllowedOptions :=
  ⟨[.linkedCells, .octree], [.lc_c01_combined_SoA, .lc_sliced_balanced, .ot_c18], [.neighborListLength], [.aos, .soa], [false, true], [1, 2],
    .pairwise⟩

/-- A valid configuration … -/
example : Valid exAllowed ⟨.linkedCells, 2, .lc_sliced_balanced, .none, .aos, true, .pairwise⟩ where
  container := by decide
  traversal := by decide
  dataLayout := by decide
  newton3 := by decide
  cellSizeFactor := by decide +kernel
  interactionType := rfl
  runs := .inl rfl
  executable := (executable_iff _ _ _ _).2 ⟨rfl, by decide +kernel⟩
  loadEstimator := .inr ⟨rfl, by decide⟩

/-- … and this is the size of the search space (1 for the combined traversal, 4 for the balanced one, 2 for the octree, each with two cell size
factors). -/
example : (match cartesianProduct exAllowed.containers exAllowed.traversals exAllowed.loadEstimators exAllowed.dataLayouts exAllowed.newton3
    (.finite exAllowed.cellSizeFactors) exAllowed.interactionType with
    | .ok S => S.length
    | _ => 0) = 14 := by decide +kernel

/-- Nothing is valid: the only traversal does not belong to the only container. -/
example : cartesianProduct [.directSum] [.lc_c08] LoadEst.values [.aos] [false] (.finite [1]) .pairwise = .throws := by decide +kernel

end Verif
