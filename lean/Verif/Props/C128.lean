import Verif.Model.TuningSetup
import Verif.Props.C102
import Verif.Props.C114
import Verif.Props.C121
import Verif.Props.C125
/-!
# C128 — the tuning strategies a user selects are set up with the search space

`AutoPas::init` gives every selected strategy the search space, some of them only as sets of options. What is inferred covers the search space
(`C128_infer_covers`), and is exactly it if the load estimator `none` is allowed (`C128_infer_exact`), otherwise not (`C128_violated_infer`).

`init` succeeds for the strategies that do not need the interaction type (`C128_init_partial`). Nobody tells the factory the interaction type, so with Bayesian
search `init` always throws (`C128_violated_bayesian`), and Active Harmony only fetches configurations outside of the search space (`C128_violated_harmony`) and never
returns (`C128_violated_harmony_diverges`). Also a Bayesian search that is constructed with the right interaction type is blind: none of its samples
is ever in the queue, so it never has any influence on what is tested next (`C128_violated_blind`, `C128_violated_blind_cluster`). The configuration all ranks fall back to
is never in the search space (`C128_violated_fallback`).
-/
namespace Verif
open Spec

/-! ### Inference -/

theorem cont_mem_values (c : Cont) : c ∈ Cont.values := by cases c <;> decide
theorem cont_value_inj {a b : Cont} (h : a.value = b.value) : a = b := by revert h; cases a <;> cases b <;> decide
theorem loadEst_value_inj {a b : LoadEst} (h : a.value = b.value) : a = b := by revert h; cases a <;> cases b <;> decide
theorem layout_value_inj {a b : Layout} (h : a.value = b.value) : a = b := by revert h; cases a <;> cases b <;> decide
theorem trav_value_inj {a b : Trav} (h : a.value = b.value) : a = b := by
  unfold Trav.value at h
  have ha := List.getElem?_idxOf (mem_travs a)
  have hb := List.getElem?_idxOf (mem_travs b)
  rw [h, hb] at ha
  injection ha with ha
  exact ha.symm

/-- What is inferred, in terms of the members of the search space. -/
theorem mem_infer (S : List (Configuration Rat)) :
    (∀ c, c ∈ (inferOptionDimensions S).containers ↔ ∃ x ∈ S, x.container = c.value) ∧
    (∀ t, t ∈ (inferOptionDimensions S).traversals ↔ ∃ x ∈ S, x.traversal = t.value) ∧
    (∀ e, e ∈ (inferOptionDimensions S).loadEstimators ↔ ∃ x ∈ S, x.loadEstimator = e.value) ∧
    (∀ d, d ∈ (inferOptionDimensions S).dataLayouts ↔ ∃ x ∈ S, x.dataLayout = d.value) ∧
    (∀ n, n ∈ (inferOptionDimensions S).newton3s ↔ ∃ x ∈ S, x.newton3 = if n then 1 else 0) ∧
    (∀ f, f ∈ (inferOptionDimensions S).cellSizeFactors ↔ ∃ x ∈ S, x.cellSizeFactor = f) := by
  refine ⟨fun c => ?_, fun t => ?_, fun e => ?_, fun d => ?_, fun n => ?_, fun f => ?_⟩
  · simp only [inferOptionDimensions, List.mem_filter, List.any_eq_true, decide_eq_true_eq, cont_mem_values, true_and]
  · simp only [inferOptionDimensions, List.mem_filter, List.any_eq_true, decide_eq_true_eq, mem_travs, true_and]
  · simp only [inferOptionDimensions, List.mem_filter, List.any_eq_true, decide_eq_true_eq, mem_loadEsts, true_and]
  · have : d ∈ [Layout.aos, Layout.soa] := by cases d <;> simp
    simp only [inferOptionDimensions, List.mem_filter, List.any_eq_true, decide_eq_true_eq, this, true_and]
  · have : n ∈ [false, true] := by cases n <;> simp
    simp only [inferOptionDimensions, List.mem_filter, List.any_eq_true, decide_eq_true_eq, this, true_and]
  · simp only [inferOptionDimensions, List.mem_dedup, List.mem_map]

theorem offers_none {c : Cont} {t : Trav} {e : LoadEst} (h : Offers c t e) : Offers c t .none := by
  cases h <;> constructor

/-- The allowed options that are inferred. -/
def inferredOptions (S : List (Configuration Rat)) (it : IxType) : AllowedOptions :=
  let D := inferOptionDimensions S
  ⟨D.containers, D.traversals, D.loadEstimators, D.dataLayouts, D.newton3s, D.cellSizeFactors, it⟩

theorem inferred_of_valid {a : AllowedOptions} {S : List (Configuration Rat)} (hS : ∀ c, c ∈ S ↔ ∃ o, Valid a o ∧ o.config = c) {o : Options} (ho : Valid a o) :
    Valid (inferredOptions S a.interactionType) o := by
  have hm : o.config ∈ S := (hS _).2 ⟨o, ho, rfl⟩
  obtain ⟨i1, i2, i3, i4, i5, i6⟩ := mem_infer S
  refine ⟨(i1 _).2 ⟨_, hm, rfl⟩, (i2 _).2 ⟨_, hm, rfl⟩, (i4 _).2 ⟨_, hm, rfl⟩, (i5 _).2 ⟨_, hm, rfl⟩, (i6 _).2 ⟨_, hm, rfl⟩, ho.interactionType, ho.runs, ho.executable, ?_⟩
  have he : o.loadEstimator ∈ (inferOptionDimensions S).loadEstimators := (i3 _).2 ⟨_, hm, rfl⟩
  rcases ho.loadEstimator with ⟨-, h⟩ | ⟨h, -⟩
  · exact .inl ⟨he, h⟩
  · by_cases hn : Offers o.container o.traversal .none
    · exact .inl ⟨he, by rw [h]; exact hn⟩
    · exact .inr ⟨h, fun e' _ hh => hn (offers_none hh)⟩

theorem valid_of_inferred {a : AllowedOptions} {S : List (Configuration Rat)} (hS : ∀ c, c ∈ S ↔ ∃ o, Valid a o ∧ o.config = c) (hnone : LoadEst.none ∈ a.loadEstimators)
    {o : Options} (ho : Valid (inferredOptions S a.interactionType) o) : Valid a o := by
  obtain ⟨i1, i2, i3, i4, i5, i6⟩ := mem_infer S
  obtain ⟨x1, hx1, e1⟩ := (i1 _).1 ho.container
  obtain ⟨o1, v1, rfl⟩ := (hS _).1 hx1
  obtain ⟨x2, hx2, e2⟩ := (i2 _).1 ho.traversal
  obtain ⟨o2, v2, rfl⟩ := (hS _).1 hx2
  obtain ⟨x4, hx4, e4⟩ := (i4 _).1 ho.dataLayout
  obtain ⟨o4, v4, rfl⟩ := (hS _).1 hx4
  obtain ⟨x5, hx5, e5⟩ := (i5 _).1 ho.newton3
  obtain ⟨o5, v5, rfl⟩ := (hS _).1 hx5
  obtain ⟨x6, hx6, e6⟩ := (i6 _).1 ho.cellSizeFactor
  obtain ⟨o6, v6, rfl⟩ := (hS _).1 hx6
  refine ⟨by rw [← cont_value_inj e1]; exact v1.container, by rw [← trav_value_inj e2]; exact v2.traversal, by rw [← layout_value_inj e4]; exact v4.dataLayout, ?_,
    by rw [← e6]; exact v6.cellSizeFactor, ho.interactionType, ho.runs, ho.executable, ?_⟩
  · have : o5.newton3 = o.newton3 := by
      unfold Options.config at e5
      simp only at e5
      revert e5
      cases o5.newton3 <;> cases o.newton3 <;> simp
    rw [← this]; exact v5.newton3
  · by_cases hn : Offers o.container o.traversal .none
    · rcases ho.loadEstimator with ⟨h, h2⟩ | ⟨h, -⟩
      · left
        refine ⟨?_, h2⟩
        obtain ⟨x3, hx3, e3⟩ := (i3 _).1 h
        obtain ⟨o3, v3, rfl⟩ := (hS _).1 hx3
        rw [← loadEst_value_inj e3]
        rcases v3.loadEstimator with ⟨h3, -⟩ | ⟨h3, -⟩
        · exact h3
        · rw [h3]; exact hnone
      · exact .inl ⟨by rw [h]; exact hnone, by rw [h]; exact hn⟩
    · right
      rcases ho.loadEstimator with ⟨-, h2⟩ | ⟨h, -⟩
      · exact absurd (offers_none h2) hn
      · exact ⟨h, fun e' _ hh => hn (offers_none hh)⟩

/-- The search space, made from what the user allowed. -/
abbrev productOf (a : AllowedOptions) : Outcome (List (Configuration Rat)) :=
  cartesianProduct a.containers a.traversals a.loadEstimators a.dataLayouts a.newton3 (.finite a.cellSizeFactors) a.interactionType

theorem product_mem {a : AllowedOptions} {S : List (Configuration Rat)} (h : productOf a = .ok S) : S ≠ [] ∧ ∀ c, c ∈ S ↔ ∃ o, Valid a o ∧ o.config = c := by
  by_cases hv : ∃ o, Valid a o
  · obtain ⟨S', h1, h2, -, -, h5⟩ := (C102_search_space a).1 hv
    have : productOf a = .ok S' := h1
    rw [h] at this; injection this with this; subst this
    exact ⟨h2, h5⟩
  · have : productOf a = .throws := (C102_search_space a).2 hv
    rw [h] at this; cases this

/-- Every configuration of the search space is a combination of the inferred options. -/
theorem C128_infer_covers {a : AllowedOptions} {S : List (Configuration Rat)} (h : productOf a = .ok S) :
    ∃ S', productOf (inferredOptions S a.interactionType) = .ok S' ∧ S ⊆ S' := by
  obtain ⟨hne, hS⟩ := product_mem h
  obtain ⟨c0, hc0⟩ := List.exists_mem_of_ne_nil _ hne
  obtain ⟨o0, v0, -⟩ := (hS _).1 hc0
  obtain ⟨S', h1, -, -, -, h5⟩ := (C102_search_space (inferredOptions S a.interactionType)).1 ⟨o0, inferred_of_valid hS v0⟩
  refine ⟨S', h1, fun c hc => ?_⟩
  obtain ⟨o, v, rfl⟩ := (hS _).1 hc
  exact (h5 _).2 ⟨o, inferred_of_valid hS v, rfl⟩

/-- And the combinations are the search space if the load estimator `none` is allowed. -/
theorem C128_infer_exact {a : AllowedOptions} {S : List (Configuration Rat)} (h : productOf a = .ok S) (hnone : LoadEst.none ∈ a.loadEstimators) :
    ∃ S', productOf (inferredOptions S a.interactionType) = .ok S' ∧ ∀ c, c ∈ S' ↔ c ∈ S := by
  obtain ⟨hne, hS⟩ := product_mem h
  obtain ⟨c0, hc0⟩ := List.exists_mem_of_ne_nil _ hne
  obtain ⟨o0, v0, -⟩ := (hS _).1 hc0
  obtain ⟨S', h1, -, -, -, h5⟩ := (C102_search_space (inferredOptions S a.interactionType)).1 ⟨o0, inferred_of_valid hS v0⟩
  refine ⟨S', h1, fun c => ?_⟩
  rw [h5, hS]
  exact ⟨fun ⟨o, v, e⟩ => ⟨o, valid_of_inferred hS hnone v, e⟩, fun ⟨o, v, e⟩ => ⟨o, inferred_of_valid hS v, e⟩⟩

/-- A user who allows only the load estimator `squaredParticlesPerCell`. -/
def onlySquared : AllowedOptions := ⟨[.linkedCells], [.lc_c08, .lc_sliced_balanced], [.squaredParticlesPerCell], [.aos], [true], [1], .pairwise⟩

/-- Without that, the inferred options contain combinations that the user excluded. -/
theorem C128_violated_infer : ∃ S S' c, productOf onlySquared = .ok S ∧ productOf (inferredOptions S .pairwise) = .ok S' ∧ c ∈ S' ∧ c ∉ S :=
  ⟨[(⟨.linkedCells, 1, .lc_c08, .none, .aos, true, .pairwise⟩ : Options).config, (⟨.linkedCells, 1, .lc_sliced_balanced, .squaredParticlesPerCell, .aos, true, .pairwise⟩ : Options).config],
    [(⟨.linkedCells, 1, .lc_c08, .none, .aos, true, .pairwise⟩ : Options).config, (⟨.linkedCells, 1, .lc_sliced_balanced, .none, .aos, true, .pairwise⟩ : Options).config,
      (⟨.linkedCells, 1, .lc_sliced_balanced, .squaredParticlesPerCell, .aos, true, .pairwise⟩ : Options).config],
    (⟨.linkedCells, 1, .lc_sliced_balanced, .none, .aos, true, .pairwise⟩ : Options).config, by decide +kernel, by decide +kernel, by decide +kernel, by decide +kernel⟩

/-! ### Initialisation -/

theorem outcomeMap_ok {α β : Type} {f : α → Outcome β} : ∀ {l : List α}, (∀ a ∈ l, ∃ b, f a = .ok b) → ∃ bs, outcomeMap f l = .ok bs := by
  intro l
  induction l with
  | nil => intro _; exact ⟨[], rfl⟩
  | cons a as ih =>
    intro h
    obtain ⟨b, hb⟩ := h a (by simp)
    obtain ⟨bs, hbs⟩ := ih fun x hx => h x (List.mem_cons_of_mem _ hx)
    exact ⟨b :: bs, by simp [outcomeMap, hb, hbs, Outcome.bind]⟩

theorem outcomeMap_ok_iff {α β : Type} {f : α → Outcome β} : ∀ {l : List α} {bs : List β}, outcomeMap f l = .ok bs → List.Forall₂ (fun a b => f a = .ok b) l bs := by
  intro l
  induction l with
  | nil => intro bs h; cases h; exact .nil
  | cons a as ih =>
    intro bs h
    unfold outcomeMap at h
    obtain ⟨b, hb, h⟩ := Outcome.bind_ok.1 h
    obtain ⟨bs', hbs, h⟩ := Outcome.bind_ok.1 h
    cases h
    exact .cons hb (ih hbs)

/-- Only exceptions, and one for some element. -/
theorem outcomeMap_throws {α β : Type} {f : α → Outcome β} : ∀ {l : List α}, (∀ a ∈ l, f a = .throws ∨ ∃ b, f a = .ok b) → (∃ a ∈ l, f a = .throws) →
    outcomeMap f l = .throws := by
  intro l
  induction l with
  | nil => rintro - ⟨a, ha, -⟩; cases ha
  | cons a as ih =>
    rintro h ⟨x, hx, hxt⟩
    unfold outcomeMap
    rcases h a (by simp) with ha | ⟨b, hb⟩
    · rw [ha]; rfl
    · rw [hb]
      simp only [Outcome.bind]
      rcases List.mem_cons.1 hx with rfl | hx
      · rw [hxt] at hb; cases hb
      · rw [ih (fun y hy => h y (List.mem_cons_of_mem _ hy)) ⟨x, hx, hxt⟩]

theorem outcomeMap_cases {α β : Type} {f : α → Outcome β} (l : List α) (h : ∀ a ∈ l, f a = .throws ∨ ∃ b, f a = .ok b) :
    outcomeMap f l = .throws ∨ ∃ bs, outcomeMap f l = .ok bs := by
  by_cases ht : ∃ a ∈ l, f a = .throws
  · exact .inl (outcomeMap_throws h ht)
  · right
    refine outcomeMap_ok fun a ha => ?_
    rcases h a ha with h | h
    · exact absurd ⟨a, ha, h⟩ ht
    · exact h

theorem generate_cases (S : List (Configuration Rat)) (o : StrategyOpt) (info : FactoryInfo) :
    generateTuningStrategy S o info = .throws ∨ ∃ b, generateTuningStrategy S o info = .ok b := by
  have he : ∀ D it, bayesianEncoder D it = .throws ∨ ∃ e, bayesianEncoder D it = .ok e := by
    intro D it
    unfold bayesianEncoder
    split
    · exact .inl rfl
    · split
      · exact .inl rfl
      · exact .inr ⟨_, rfl⟩
  unfold generateTuningStrategy
  cases o <;> simp only
  case bayesianSearch => rcases he (inferOptionDimensions S) info.interactionType with h | ⟨e, h⟩ <;> rw [h] <;> simp [Outcome.bind]
  case bayesianClusterSearch => rcases he (inferOptionDimensions S) info.interactionType with h | ⟨e, h⟩ <;> rw [h] <;> simp [Outcome.bind]
  case activeHarmony => split <;> simp
  case mpiDivideAndConquer => split <;> simp
  all_goals simp

/-- The options for one interaction type. -/
def InitOptions.allowed (a : InitOptions) (it : IxType) : AllowedOptions :=
  ⟨a.containers, a.traversals it, a.loadEstimators, a.dataLayouts it, a.newton3 it, a.cellSizeFactors, it⟩

/-- The strategies that need no interaction type. -/
def StrategyOpt.selfSufficient : StrategyOpt → Bool
  | .randomSearch | .predictiveTuning | .ruleBasedTuning | .fuzzyTuning | .slowConfigFilter | .sortByName => true
  | _ => false

theorem forall₂_mem_left {α β : Type} {R : α → β → Prop} {l : List α} {r : List β} (h : List.Forall₂ R l r) {a : α} (ha : a ∈ l) : ∃ b ∈ r, R a b := by
  induction h with
  | nil => cases ha
  | cons h1 _ ih =>
    rcases List.mem_cons.1 ha with rfl | ha
    · exact ⟨_, List.mem_cons_self, h1⟩
    · obtain ⟨b, hb, h⟩ := ih ha
      exact ⟨b, List.mem_cons_of_mem _ hb, h⟩

theorem forall₂_imp_mem {α β : Type} {R R' : α → β → Prop} {l : List α} {r : List β} (h : List.Forall₂ R l r) (hi : ∀ a ∈ l, ∀ b, R a b → R' a b) : List.Forall₂ R' l r := by
  induction h with
  | nil => exact .nil
  | cons h1 _ ih => exact .cons (hi _ List.mem_cons_self _ h1) (ih fun a ha => hi a (List.mem_cons_of_mem _ ha))

theorem product_cases (a : AllowedOptions) : productOf a = .throws ∨ ∃ S, productOf a = .ok S := by
  by_cases hv : ∃ o, Valid a o
  · obtain ⟨S', h1, -⟩ := (C102_search_space a).1 hv
    exact .inr ⟨S', h1⟩
  · exact .inl ((C102_search_space a).2 hv)

/-- `b` is the strategy that the user selected by `o`, with the search space and the number of samples that it needs. -/
def Implements (S : List (Configuration Rat)) (maxEvidence : Nat) (o : StrategyOpt) (b : BuiltStrategy) : Prop :=
  match o, b with
  | .randomSearch, .randomSearch n => n = maxEvidence
  | .ruleBasedTuning, .ruleBasedTuning S' => S' = S
  | .predictiveTuning, .predictiveTuning | .fuzzyTuning, .fuzzyTuning | .slowConfigFilter, .slowConfigFilter | .sortByName, .sortByName => True
  | _, _ => False

/-- With these strategies `init` succeeds exactly if there is a valid configuration for each interaction type; the tuner of each type then has the search space of
exactly the valid configurations, and one strategy per selected option, in order. -/
theorem C128_init_partial (a : InitOptions) (hs : ∀ o ∈ a.strategies, o.selfSufficient = true) :
    ((∃ r, autoPasInit a = .ok r) ↔ ∀ it ∈ a.interactionTypes, ∃ o, Valid (a.allowed it) o) ∧
    ∀ r, autoPasInit a = .ok r → List.Forall₂ (fun it t => t.1 = it ∧ (∀ c, c ∈ t.2.1 ↔ ∃ o, Valid (a.allowed it) o ∧ o.config = c) ∧
      List.Forall₂ (Implements t.2.1 a.maxEvidence) a.strategies t.2.2) a.interactionTypes r := by
  have hgen : ∀ S, ∃ l, outcomeMap (fun o => generateTuningStrategy S o a.factoryInfo) a.strategies = .ok l := by
    intro S
    refine outcomeMap_ok fun o ho => ?_
    have := hs o ho
    cases o <;> simp [StrategyOpt.selfSufficient] at this <;> simp [generateTuningStrategy]
  have hspec : ∀ r, autoPasInit a = .ok r → List.Forall₂ (fun it t => t.1 = it ∧ (∀ c, c ∈ t.2.1 ↔ ∃ o, Valid (a.allowed it) o ∧ o.config = c) ∧ t.2.1 ≠ [] ∧
      List.Forall₂ (fun o b => generateTuningStrategy t.2.1 o a.factoryInfo = .ok b) a.strategies t.2.2) a.interactionTypes r := by
    intro r hr
    refine (outcomeMap_ok_iff hr).imp fun it t h => ?_
    obtain ⟨S, hS, h⟩ := Outcome.bind_ok.1 h
    obtain ⟨l, hl, h⟩ := Outcome.bind_ok.1 h
    cases h
    obtain ⟨h1, h2⟩ := product_mem (a := a.allowed it) hS
    exact ⟨rfl, h2, h1, outcomeMap_ok_iff hl⟩
  refine ⟨⟨?_, ?_⟩, fun r hr => (hspec r hr).imp fun it t h => ⟨h.1, h.2.1, forall₂_imp_mem h.2.2.2 fun o ho b hb => ?_⟩⟩
  · rintro ⟨r, hr⟩ it hit
    have := hspec r hr
    obtain ⟨t, -, -, h2, h3, -⟩ := forall₂_mem_left this hit
    obtain ⟨c, hc⟩ := List.exists_mem_of_ne_nil _ h3
    obtain ⟨o, v, -⟩ := (h2 c).1 hc
    exact ⟨o, v⟩
  · intro h
    refine outcomeMap_ok fun it hit => ?_
    obtain ⟨S, h1, -⟩ := (C102_search_space (a.allowed it)).1 (h it hit)
    obtain ⟨l, hl⟩ := hgen S
    refine ⟨(it, S, l), ?_⟩
    have h1' : cartesianProduct a.containers (a.traversals it) a.loadEstimators (a.dataLayouts it) (a.newton3 it) (.finite a.cellSizeFactors) it = .ok S := h1
    rw [h1']
    simp only [Outcome.bind, hl]
  · have := hs o ho
    cases o <;> simp [StrategyOpt.selfSufficient] at this <;> (unfold generateTuningStrategy at hb; simp only at hb; cases hb) <;> first | exact trivial | rfl

theorem bayesian_unset (D : OptionSpace) : bayesianEncoder D none = .throws := by
  unfold bayesianEncoder bayesianTriples
  cases h : D.containers with
  | nil => simp
  | cons c cs => simp

/-- With Bayesian search, Bayesian cluster search, full search or the logger among the strategies, `init` throws, whatever the options. -/
theorem C128_violated_bayesian (a : InitOptions) (hit : a.interactionTypes ≠ [])
    (hs : ∃ o ∈ a.strategies, o = .bayesianSearch ∨ o = .bayesianClusterSearch ∨ o = .fullSearch ∨ o = .tuningStrategyLogger) : autoPasInit a = .throws := by
  have hgen : ∀ S, outcomeMap (fun o => generateTuningStrategy S o a.factoryInfo) a.strategies = .throws := by
    intro S
    refine outcomeMap_throws (fun o _ => generate_cases S o _) ?_
    obtain ⟨o, ho, h⟩ := hs
    refine ⟨o, ho, ?_⟩
    rcases h with rfl | rfl | rfl | rfl <;> simp [generateTuningStrategy, InitOptions.factoryInfo, bayesian_unset, Outcome.bind]
  have hall : ∀ it, ((cartesianProduct a.containers (a.traversals it) a.loadEstimators (a.dataLayouts it) (a.newton3 it) (.finite a.cellSizeFactors) it).bind fun S =>
      (outcomeMap (fun o => generateTuningStrategy S o a.factoryInfo) a.strategies).bind fun l => (.ok (it, S, l) : Outcome (IxType × List (Configuration Rat) × List BuiltStrategy))) = .throws := by
    intro it
    rcases product_cases (a.allowed it) with h | ⟨S, h⟩
    · have h' : cartesianProduct a.containers (a.traversals it) a.loadEstimators (a.dataLayouts it) (a.newton3 it) (.finite a.cellSizeFactors) it = .throws := h
      rw [h']; rfl
    · have h' : cartesianProduct a.containers (a.traversals it) a.loadEstimators (a.dataLayouts it) (a.newton3 it) (.finite a.cellSizeFactors) it = .ok S := h
      rw [h']
      simp only [Outcome.bind, hgen S]
  obtain ⟨it, hm⟩ := List.exists_mem_of_ne_nil _ hit
  exact outcomeMap_throws (fun it _ => .inl (hall it)) ⟨it, hm, hall it⟩

/-! ### Active Harmony -/

theorem space_type {a : AllowedOptions} {S : List (Configuration Rat)} (h : productOf a = .ok S) : ∀ c ∈ S, c.interactionType ≠ unsetInteractionType := by
  intro c hc
  obtain ⟨o, -, rfl⟩ := ((product_mem h).2 c).1 hc
  show o.interactionType.value ≠ unsetInteractionType
  cases o.interactionType <;> decide

theorem harmony_type {p : HarmonyParams} {S : Type} {srv : HarmonyServer S} {s : S} {c : Configuration Rat} (h : fetchHarmonyConfiguration p srv s = .ok c) :
    c.interactionType = p.interactionType := by
  unfold fetchHarmonyConfiguration at h
  obtain ⟨t, -, h⟩ := Outcome.bind_ok.1 h
  obtain ⟨d, -, h⟩ := Outcome.bind_ok.1 h
  obtain ⟨n, -, h⟩ := Outcome.bind_ok.1 h
  split at h
  · cases h
  · obtain ⟨e, -, h⟩ := Outcome.bind_ok.1 h
    cases h; rfl

theorem eq_type {c d : Configuration Rat} (h : c.eq d = true) : c.interactionType = d.interactionType := by
  unfold Configuration.eq Configuration.equalsDiscreteOptions at h
  simp only [Bool.and_eq_true, decide_eq_true_eq] at h
  exact h.2.2

/-- No configuration that a strategy made by `init` fetches is in the search space, whatever the server answers. -/
theorem C128_violated_harmony (a : InitOptions) {it : IxType} {space : List (Configuration Rat)} (hspace : productOf (a.allowed it) = .ok space) {p : HarmonyParams}
    (hp : generateTuningStrategy space .activeHarmony a.factoryInfo = .ok (.activeHarmony p)) {S : Type} (srv : HarmonyServer S) (s : S) {c : Configuration Rat}
    (hc : fetchHarmonyConfiguration p srv s = .ok c) : ∀ d ∈ space, d.eq c = false := by
  intro d hd
  rw [Bool.eq_false_iff]
  intro h
  have h1 := eq_type h
  rw [harmony_type hc] at h1
  have h2 : p.interactionType = unsetInteractionType := by
    unfold generateTuningStrategy at hp
    simp only at hp
    split at hp
    · cases hp
    · injection hp with hp; injection hp with hp; subst hp; rfl
  exact space_type hspace d hd (h1.trans h2)

/-- So with a local server that has converged, the strategy never returns. -/
theorem C128_violated_harmony_diverges (a : InitOptions) {it : IxType} {space : List (Configuration Rat)} (hspace : productOf (a.allowed it) = .ok space) {p : HarmonyParams}
    (hp : generateTuningStrategy space .activeHarmony a.factoryInfo = .ok (.activeHarmony p)) (hlocal : p.nonLocalServer = false) (htriv : p.isTrivial = false) (o : Options)
    {c : Configuration Rat} (hc : fetchHarmonyConfiguration p (convergedServer o) () = .ok c) (q : List (Configuration Rat)) (hq : q ⊆ space)
    (ev : Configuration Rat → List Evidence) (fuel : Nat) : harmonyOptimize p (convergedServer o) fuel () q ev = .diverges := by
  have hne : p.isEmpty = false := by
    unfold generateTuningStrategy at hp
    simp only at hp
    split at hp
    · cases hp
    · next h => injection hp with hp; injection hp with hp; subst hp; exact Bool.not_eq_true _ ▸ h
  refine C125_violated_diverges p ((HarmonyParams.hasChoice_iff _).2 (by rw [htriv, hne]; rfl)) hlocal o c hc q ?_ ev fuel
  rw [List.any_eq_false]
  intro d hd
  rw [C128_violated_harmony a hspace hp _ _ hc d (hq hd)]
  simp

/-! ### Bayesian strategies constructed with the right interaction type -/

/-- The samples of an encoder: `convertFromTunable` of some values. -/
def SampledFrom (E : Encoder CTE Layout Bool) (c : Configuration Rat) : Prop := ∃ d f v, E.convertFromTunable d f = .ok v ∧ v.config = c

theorem sampled_type {D : OptionSpace} {it : Option IxType} {E : Encoder CTE Layout Bool} (hE : bayesianEncoder D it = .ok E) {c : Configuration Rat} (hc : SampledFrom E c) :
    c.interactionType = unsetInteractionType := by
  obtain ⟨d, f, v, hv, rfl⟩ := hc
  have hu : E.interactionType = unsetInteractionType := by
    unfold bayesianEncoder at hE
    split at hE
    · cases hE
    · split at hE
      · cases hE
      · injection hE with hE; subst hE; rfl
  unfold Encoder.convertFromTunable at hv
  split at hv
  · injection hv with hv; subst hv; exact hu
  · cases hv

/-- `BayesianSearch` for any interaction type and any queue of configurations of the search space: as long as it is asked, it leaves the queue as it is. -/
theorem C128_violated_blind {V : Type} [LinearOrder V] {a : AllowedOptions} {space : List (Configuration Rat)} (hspace : productOf a = .ok space) {D : OptionSpace}
    {it : Option IxType} {E : Encoder CTE Layout Bool} (hE : bayesianEncoder D it = .ok E) {P : BayesParams (Configuration Rat) V} (hsort : P.Sorts)
    (hsample : ∀ k, ∀ c ∈ P.sample k, SampledFrom E c) {s : BayesState (Configuration Rat)} (hs : s.thrown = false) (hev : s.evidence.length < P.maxEvidence)
    {queue : List (Configuration Rat)} (hq : queue ⊆ space) : (s.optimize P queue).1 = (queue, false) ∧ (s.optimize P queue).2.thrown = false :=
  C114_violated_abort hsort hs (fun k c hc h => space_type hspace c (hq h) (sampled_type hE (hsample k c hc))) hev

/-- The same for `BayesianClusterSearch`. -/
theorem C128_violated_blind_cluster {V : Type} [LinearOrder V] {a : AllowedOptions} {space : List (Configuration Rat)} (hspace : productOf a = .ok space) {D : OptionSpace}
    {it : Option IxType} {E : Encoder CTE Layout Bool} (hE : bayesianEncoder D it = .ok E) {P : ClusterSearchParams (Configuration Rat) V} (hP : P.Ok)
    (hsample : ∀ k i, ∀ c ∈ P.sample k i, SampledFrom E c) {s : ClusterSearch (Configuration Rat)} (hs : s.thrown = false) (hlater : s.firstPhase = false)
    (hev : s.num < P.maxEvidence) {queue : List (Configuration Rat)} (hq : queue ⊆ space) :
    (s.optimize P queue).1 = (queue, false) ∧ (s.optimize P queue).2.thrown = false :=
  C121_violated_abort hP hs hlater (fun k i c hc h => space_type hspace c (hq h) (sampled_type hE (hsample k i c hc))) hev

/-! ### The configuration to fall back to -/

/-- The fallback of `init` is never in the search space. -/
theorem C128_violated_fallback (a : InitOptions) {it : IxType} {space : List (Configuration Rat)} (hspace : productOf (a.allowed it) = .ok space) (b : Configuration Rat)
    (hb : generateTuningStrategy space .mpiDivideAndConquer a.factoryInfo = .ok (.mpiParallelized b)) : b ∉ space ∧ ∀ o : Options, o.config ≠ b := by
  have h : b.interactionType = unsetInteractionType := by
    unfold generateTuningStrategy at hb
    simp only at hb
    split at hb
    · injection hb with hb; injection hb with hb; subst hb; rfl
    · cases hb
  refine ⟨fun hm => space_type hspace b hm h, fun o ho => ?_⟩
  subst ho
  revert h
  show o.interactionType.value = unsetInteractionType → False
  cases o.interactionType <;> decide

/-- With the interaction type it would be a valid configuration for pairs, whatever the search space. -/
theorem C128_fallback_pairwise (S : List (Configuration Rat)) : ∃ o : Options, o.config = fallBackConfiguration S (some .pairwise) ∧ hasCompatibleValues o = some true := by
  unfold fallBackConfiguration
  by_cases h1 : (S.any fun c => decide (c.dataLayout = Layout.soa.value)) = true <;> by_cases h2 : (S.any fun c => decide (c.newton3 = 1)) = true
  · exact ⟨⟨.linkedCells, 1, .lc_c08, .none, .soa, true, .pairwise⟩, by simp only [h1, h2, if_true]; rfl, by decide +kernel⟩
  · exact ⟨⟨.linkedCells, 1, .lc_c08, .none, .soa, false, .pairwise⟩, by simp only [h1, h2, if_true]; rfl, by decide +kernel⟩
  · exact ⟨⟨.linkedCells, 1, .lc_c08, .none, .aos, true, .pairwise⟩, by simp only [h1, h2, if_true]; rfl, by decide +kernel⟩
  · exact ⟨⟨.linkedCells, 1, .lc_c08, .none, .aos, false, .pairwise⟩, by simp only [h1, h2]; rfl, by decide +kernel⟩

/-- For triplets it would not, if some configuration of the search space uses newton 3, e.g. that of DirectSum. -/
theorem C128_violated_fallback_triwise (S : List (Configuration Rat)) (h : ∃ c ∈ S, c.newton3 = 1) (o : Options) (ho : o.config = fallBackConfiguration S (some .triwise)) :
    hasCompatibleValues o = some false := by
  have hn : (S.any fun c => decide (c.newton3 = 1)) = true := by
    obtain ⟨c, hc, h⟩ := h
    exact List.any_eq_true.2 ⟨c, hc, by simpa using h⟩
  have hf := congrArg Configuration.newton3 ho
  have ht := congrArg Configuration.traversal ho
  have hi := congrArg Configuration.interactionType ho
  have hcn := congrArg Configuration.container ho
  simp only [fallBackConfiguration, hn, if_true, Options.config] at hf ht hi hcn
  have e1 : o.newton3 = true := by revert hf; cases o.newton3 <;> simp
  have e2 : o.traversal = .lc_c01 := trav_value_inj ht
  have e3 : o.interactionType = .triwise := by revert hi; cases o.interactionType <;> decide
  have e4 : o.container = .linkedCells := cont_value_inj hcn
  obtain ⟨c, f, t, e, d, n, i⟩ := o
  simp only at e1 e2 e3 e4
  subst e1 e2 e3 e4
  have : ∀ (e : LoadEst) (d : Layout), hasCompatibleValues ⟨.linkedCells, 1, .lc_c01, e, d, true, .triwise⟩ = some false := by
    intro e d
    cases e <;> cases d <;> decide +kernel
  exact this e d

/-! ### Examples -/

/-- Allowed options with a search space of four configurations, from which they are inferred again. -/
example : ∃ S, productOf ⟨[.linkedCells], [.lc_c08, .lc_c18], [.none], [.aos, .soa], [true], [1], .pairwise⟩ = .ok S ∧ S.length = 4 ∧
    inferOptionDimensions S = ⟨[.linkedCells], [.lc_c08, .lc_c18], [.none], [.aos, .soa], [true], [1]⟩ := by
  refine ⟨_, rfl, ?_, ?_⟩ <;> decide +kernel

/-- A user who selects Bayesian search with otherwise ordinary options, and one who selects random search. -/
def userOptions (s : List StrategyOpt) : InitOptions :=
  ⟨[.pairwise], [.linkedCells], [.none], [1], fun _ => [.lc_c08, .lc_c18], fun _ => [.aos, .soa], fun _ => [true], s, 10, false, false⟩

example : autoPasInit (userOptions [.bayesianSearch]) = .throws := C128_violated_bayesian _ (by simp [userOptions]) ⟨.bayesianSearch, by simp [userOptions], .inl rfl⟩
example : (autoPasInit (userOptions [.randomSearch, .slowConfigFilter])).bind (fun r => .ok (r.map fun t => (t.1, t.2.1.length, t.2.2.length))) = .ok [(.pairwise, 4, 2)] := by decide +kernel

/-- Constructed with the right type the strategy exists, and has all four configurations but for the type. -/
example : (bayesianEncoder ⟨[.linkedCells], [.lc_c08, .lc_c18], [.none], [.aos, .soa], [true], [1]⟩ (some .pairwise)) =
    .ok ⟨[(.linkedCells, .lc_c08, .none), (.linkedCells, .lc_c18, .none)], [.aos, .soa], [true], unsetInteractionType⟩ := rfl

end Verif
