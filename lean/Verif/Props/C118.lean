import Verif.Lemmas.Distribution
import Verif.Props.C102
import Mathlib.Tactic.FieldSimp
import Mathlib.Algebra.Order.Floor.Ring
import Mathlib.Data.Rat.Floor
/-!
# C118: the options of all ranks together are the allowed options

Full claim: whatever options are allowed and however many ranks there are, `distributeConfigurations` gives every rank some of the allowed options, about the
same number, such that every combination of allowed options that can be executed is one of the options of some rank. This also holds if an interval of
cell size factors is allowed.
-/
namespace Verif
open Spec Dist

/-- The options of a rank. -/
def LocalOptions.allowed (l : LocalOptions) (csfs : List Rat) (it : IxType) : AllowedOptions := ⟨l.conts, l.travs, l.les, l.lays, l.n3s, csfs, it⟩

/-- Every container has an allowed traversal, and no set is empty. -/
structure Distributable (a : AllowedOptions) : Prop where
  containers : a.containers ≠ []
  traversals : ∀ c ∈ a.containers, ∃ t ∈ a.traversals, RunsOn a.interactionType t c ∧ generatesTraversal a.interactionType t = true
  cellSizeFactors : a.cellSizeFactors ≠ []
  dataLayouts : a.dataLayouts ≠ []
  newton3 : a.newton3 ≠ []

theorem compatible_mem {it : IxType} {c : Cont} {t : Trav} (h : RunsOn it t c) (hg : generatesTraversal it t = true) :
    ∃ ts, compatibleTraversals c it = some ts ∧ ts.contains t = true := by
  have key : ((compatibleTraversals c it).any fun ts => ts.contains t) = true := by
    cases it with
    | pairwise => exact (compatible_pairwise t c).2 h
    | triwise => exact (compatible_triwise t c).2 ⟨h, hg⟩
    | all => exact h.elim
  cases hc : compatibleTraversals c it with
  | none => rw [hc] at key; cases key
  | some ts => rw [hc] at key; exact ⟨ts, rfl, key⟩

/-- The arguments as the handler sees them. -/
def distOptions (a : AllowedOptions) : DistOptions :=
  ⟨a.containers, a.cellSizeFactors, a.traversals, a.loadEstimators, a.dataLayouts, a.newton3, a.interactionType⟩

theorem Distributable.good {a : AllowedOptions} (h : Distributable a) : Dist.Good (distOptions a) := by
  refine ⟨fun c hc => ?_, fun c hc => ?_, h.cellSizeFactors, h.dataLayouts, h.newton3⟩
  · obtain ⟨t, -, h1, h2⟩ := h.traversals c hc
    obtain ⟨ts, h3, -⟩ := compatible_mem h1 h2
    show (compatibleTraversals c a.interactionType).isSome = true
    rw [h3]
    rfl
  · obtain ⟨t, ht, h1, h2⟩ := h.traversals c hc
    obtain ⟨ts, h3, h4⟩ := compatible_mem h1 h2
    have : t ∈ travsOf (distOptions a) c := by
      unfold travsOf
      show t ∈ (match compatibleTraversals c a.interactionType with
        | none => []
        | some ts => a.traversals.filter fun t => ts.contains t)
      rw [h3]
      exact List.mem_filter.2 ⟨ht, h4⟩
    exact List.ne_nil_of_mem this

theorem mem_allConfs {a : DistOptions} {x : DistConf} : x ∈ allConfs a ↔
    x.cont ∈ a.conts ∧ x.csf ∈ a.csfs ∧ x.trav ∈ travsOf a x.cont ∧ x.le ∈ applicableLoadEstimators x.cont x.trav a.les ∧ x.lay ∈ a.lays ∧ x.n3 ∈ a.n3s := by
  obtain ⟨c, f, t, e, d, n⟩ := x
  unfold allConfs blockF blockT blockE blockD blockN estsOf
  simp only [List.mem_flatMap, List.mem_map, DistConf.mk.injEq]
  constructor
  · rintro ⟨c', h1, f', h2, t', h3, e', h4, d', h5, n', h6, rfl, rfl, rfl, rfl, rfl, rfl⟩
    exact ⟨h1, h2, h3, h4, h5, h6⟩
  · rintro ⟨h1, h2, h3, h4, h5, h6⟩
    exact ⟨c, h1, f, h2, t, h3, e, h4, d, h5, n, h6, rfl, rfl, rfl, rfl, rfl, rfl⟩

theorem travsOf_subset {a : DistOptions} {c : Cont} {t : Trav} (h : t ∈ travsOf a c) : t ∈ a.travs := by
  unfold travsOf at h
  split at h
  · cases h
  · exact (List.mem_filter.1 h).1

theorem applicable_subset {c : Cont} {t : Trav} {les : List LoadEst} {e : LoadEst} (h : e ∈ applicableLoadEstimators c t les) : e ∈ les ∨ e = .none := by
  unfold applicableLoadEstimators at h
  split at h
  · dsimp only at h
    split at h
    · exact .inr (List.mem_singleton.1 h)
    · exact .inl (List.mem_filter.1 h).1
  · exact .inr (List.mem_singleton.1 h)

/-- A valid combination is one of the configurations of the handler. -/
theorem valid_mem {a : AllowedOptions} {o : Options} (h : Valid a o) :
    (⟨o.container, o.cellSizeFactor, o.traversal, o.loadEstimator, o.dataLayout, o.newton3⟩ : DistConf) ∈ allConfs (distOptions a) := by
  refine mem_allConfs.2 ⟨h.container, h.cellSizeFactor, ?_, (mem_applicable (runsOn_form h.runs)).2 h.loadEstimator, h.dataLayout, h.newton3⟩
  obtain ⟨ts, h3, h4⟩ := compatible_mem h.runs h.executable.1
  unfold travsOf
  show o.traversal ∈ (match compatibleTraversals o.container a.interactionType with
    | none => []
    | some ts => a.traversals.filter fun t => ts.contains t)
  rw [← h.interactionType, h3]
  exact List.mem_filter.2 ⟨h.traversal, h4⟩

/-- A valid combination stays valid for a rank that got its options. -/
theorem valid_local {a : AllowedOptions} {o : Options} (h : Valid a o) {cs : List DistConf} {fs' : List Rat}
    (hcs : ∀ c ∈ cs, c ∈ allConfs (distOptions { a with cellSizeFactors := fs' }))
    {f : Rat} (hm : (⟨o.container, f, o.traversal, o.loadEstimator, o.dataLayout, o.newton3⟩ : DistConf) ∈ cs) (fs : List Rat)
    (hf : o.cellSizeFactor ∈ fs) :
    Valid ⟨cs.map DistConf.cont, cs.map DistConf.trav, cs.map DistConf.le, cs.map DistConf.lay, cs.map DistConf.n3, fs, a.interactionType⟩ o := by
  refine ⟨List.mem_map.2 ⟨_, hm, rfl⟩, List.mem_map.2 ⟨_, hm, rfl⟩, List.mem_map.2 ⟨_, hm, rfl⟩, List.mem_map.2 ⟨_, hm, rfl⟩, hf, h.interactionType, h.runs,
    h.executable, ?_⟩
  have hle : o.loadEstimator ∈ cs.map DistConf.le := List.mem_map.2 ⟨_, hm, rfl⟩
  rcases h.loadEstimator with ⟨-, h2⟩ | ⟨h1, h2⟩
  · exact .inl ⟨hle, h2⟩
  · by_cases hno : Offers o.container o.traversal .none
    · exact .inl ⟨hle, by rw [h1]; exact hno⟩
    · refine .inr ⟨h1, fun e he ho => ?_⟩
      obtain ⟨x, hx, rfl⟩ := List.mem_map.1 he
      rcases applicable_subset (mem_allConfs.1 (hcs x hx)).2.2.2.1 with h3 | h3
      · exact h2 x.le h3 ho
      · rw [h3] at ho; exact hno ho

theorem allConfs_pos {a : AllowedOptions} (ha : Distributable a) : 0 < (allConfs (distOptions a)).length := by
  obtain ⟨c, x, hc⟩ := exists_cons ha.containers
  have hm : c ∈ a.containers := by rw [hc]; exact List.mem_cons_self
  obtain ⟨t, ts, ht⟩ := exists_cons (ha.good.trav c hm)
  obtain ⟨f, fs, hf'⟩ := exists_cons ha.cellSizeFactors
  obtain ⟨d, ds, hd'⟩ := exists_cons ha.dataLayouts
  obtain ⟨n, ns, hn'⟩ := exists_cons ha.newton3
  obtain ⟨e, es, he⟩ := exists_cons (estsOf_ne (distOptions a) c t)
  exact List.length_pos_of_mem (a := (⟨c, f, t, e, d, n⟩ : DistConf)) (mem_allConfs.2 ⟨hm, by
    show f ∈ a.cellSizeFactors; rw [hf']; exact List.mem_cons_self, by rw [ht]; exact List.mem_cons_self, by
    show e ∈ estsOf (distOptions a) c t; rw [he]; exact List.mem_cons_self, by
    show d ∈ a.dataLayouts; rw [hd']; exact List.mem_cons_self, by show n ∈ a.newton3; rw [hn']; exact List.mem_cons_self⟩)

/-- What a rank gets in terms of the passed configurations. -/
theorem distribute_eq {a : AllowedOptions} (ha : Distributable a) {csfs : CsfSet} (hcsf : distCsfs csfs = a.cellSizeFactors) {R r : Nat} (hr : r < R) {N : Nat}
    (hN : (allConfs (distOptions a)).length = N) {fuel : Nat} (hf : N + R < fuel) :
    ∃ (cs : List DistConf) (offset blockSize : Nat),
      distributeConfigurations fuel a.containers csfs a.traversals a.loadEstimators a.dataLayouts a.newton3 a.interactionType r R =
        .ok ⟨cs.map DistConf.cont, match csfs with
          | .finite _ => .finite (cs.map DistConf.csf)
          | .interval lo hi => .interval (lo + (hi - lo) / blockSize * offset) (lo + (hi - lo) / blockSize * (offset + 1)),
          cs.map DistConf.trav, cs.map DistConf.le, cs.map DistConf.lay, cs.map DistConf.n3⟩ ∧
      cs.length = ((trace N R fuel (Pos.start N R)).filter fun x => x.2 = r).length ∧
      (N < R → N ∣ R → blockSize = R / N ∧ offset = r % (R / N)) ∧
      ∀ c, c ∈ cs ↔ ∃ k, (k, r) ∈ trace N R fuel (Pos.start N R) ∧ (allConfs (distOptions a))[k]? = some c := by
  subst hN
  obtain ⟨h0, h, cs, e1, e2, e3, e4, e5, e6⟩ := distribution_spec ha.good ha.containers hr hf
  refine ⟨cs, h.offset, h.blockSize, ?_, e4, e5, e6⟩
  have hs : searchSpaceSize (distOptions a) = some (allConfs (distOptions a)).length := searchSpaceSize_eq ha.good.comp
  have hne : (allConfs (distOptions a)).length ≠ 0 := (allConfs_pos ha).ne'
  unfold distributeConfigurations
  dsimp only
  rw [hcsf]
  change (match searchSpaceSize (distOptions a) with
    | none => Outcome.throws
    | some n => if n = 0 then .throws else generateDistribution fuel (distOptions a) csfs n R r) = _
  rw [hs]
  dsimp only
  rw [if_neg hne]
  unfold generateDistribution
  rw [e1, ok_bind_eq, e2, ok_bind_eq, e3, ok_bind_eq]
  cases csfs <;> rfl

theorem distSkip_mono (a : DistOptions) (N R r : Nat) : ∀ (fuel d : Nat) (h h' : DistHandler), distSkip a N R r fuel h = .ok h' →
    distSkip a N R r (fuel + d) h = .ok h' := by
  intro fuel
  induction fuel with
  | zero => intro d h h' e; cases e
  | succ n ih =>
    intro d h h' e
    rw [show n + 1 + d = (n + d) + 1 from by omega]
    unfold distSkip at e ⊢
    split at e
    · rename_i hlt
      rw [if_pos hlt]
      obtain ⟨x, hx, hy⟩ := Outcome.bind_ok.1 e
      exact Outcome.bind_ok.2 ⟨x, hx, ih d x h' hy⟩
    · rename_i hlt
      rw [if_neg hlt]
      exact e

theorem distCollect_mono (a : DistOptions) (N R r : Nat) : ∀ (fuel d : Nat) (h : DistHandler) (cs : List DistConf), distCollect a N R r fuel h = .ok cs →
    distCollect a N R r (fuel + d) h = .ok cs := by
  intro fuel
  induction fuel with
  | zero => intro d h h' e; cases e
  | succ n ih =>
    intro d h cs e
    rw [show n + 1 + d = (n + d) + 1 from by omega]
    unfold distCollect at e ⊢
    split at e
    · rename_i heq
      rw [if_pos heq]
      obtain ⟨c, hc, e⟩ := Outcome.bind_ok.1 e
      obtain ⟨x, hx, e⟩ := Outcome.bind_ok.1 e
      obtain ⟨y, hy, e⟩ := Outcome.bind_ok.1 e
      exact Outcome.bind_ok.2 ⟨c, hc, Outcome.bind_ok.2 ⟨x, hx, Outcome.bind_ok.2 ⟨y, ih d x y hy, e⟩⟩⟩
    · rename_i heq
      rw [if_neg heq]
      exact e

theorem distribute_mono {conts : List Cont} {csfs : CsfSet} {travs : List Trav} {les : List LoadEst} {lays : List Layout} {n3s : List Bool} {it : IxType}
    {R r fuel : Nat} {l : LocalOptions} (h : distributeConfigurations fuel conts csfs travs les lays n3s it r R = .ok l) (d : Nat) :
    distributeConfigurations (fuel + d) conts csfs travs les lays n3s it r R = .ok l := by
  unfold distributeConfigurations at h ⊢
  dsimp only at h ⊢
  split at h
  · cases h
  · rename_i n hn
    split at h
    · cases h
    · rename_i h0
      rw [if_neg h0]
      unfold generateDistribution at h ⊢
      obtain ⟨a1, e1, h⟩ := Outcome.bind_ok.1 h
      obtain ⟨a2, e2, h⟩ := Outcome.bind_ok.1 h
      obtain ⟨a3, e3, h⟩ := Outcome.bind_ok.1 h
      exact Outcome.bind_ok.2 ⟨a1, e1, Outcome.bind_ok.2 ⟨a2, distSkip_mono _ _ _ _ _ d _ _ e2, Outcome.bind_ok.2 ⟨a3, distCollect_mono _ _ _ _ _ d _ _ e3, h⟩⟩⟩

/-- C118 for finitely many cell size factors, if every allowed container has an allowed traversal. With `N` the size of the search space, the loops end, every
rank gets options of about `N / R` configurations (of exactly one if there are not fewer ranks than configurations), only allowed ones (and the load estimator
`none`), and every valid combination is valid with the options of some rank. Missing: the other containers and intervals, see below. -/
theorem C118_covers_partial {a : AllowedOptions} (ha : Distributable a) {R : Nat} (hR : 0 < R) : ∃ (N : Nat) (part : Nat → LocalOptions) (fs : Nat → List Rat),
    searchSpaceSize ⟨a.containers, a.cellSizeFactors, a.traversals, a.loadEstimators, a.dataLayouts, a.newton3, a.interactionType⟩ = some N ∧
    (∀ r < R, (∀ fuel, N + R < fuel → distributeConfigurations fuel a.containers (.finite a.cellSizeFactors) a.traversals a.loadEstimators a.dataLayouts
        a.newton3 a.interactionType r R = .ok (part r)) ∧
      (part r).csfs = .finite (fs r) ∧
      (∀ n, n ∈ [(part r).conts.length, (part r).travs.length, (part r).les.length, (part r).lays.length, (part r).n3s.length, (fs r).length] →
        0 < n ∧ (R ≤ N → n ≤ N / R + 1) ∧ (N ≤ R → n = 1)) ∧
      (part r).conts ⊆ a.containers ∧ fs r ⊆ a.cellSizeFactors ∧ (part r).travs ⊆ a.traversals ∧ (part r).les ⊆ .none :: a.loadEstimators ∧
      (part r).lays ⊆ a.dataLayouts ∧ (part r).n3s ⊆ a.newton3) ∧
    ∀ o, Valid a o → ∃ r < R, Valid ((part r).allowed (fs r) a.interactionType) o := by
  have hN0 := allConfs_pos ha
  have hs : searchSpaceSize (distOptions a) = some (allConfs (distOptions a)).length := searchSpaceSize_eq ha.good.comp
  generalize hN : (allConfs (distOptions a)).length = N at hN0 hs
  have hex : ∀ r, ∃ cs : List DistConf, r < R → (∀ fuel, N + R < fuel → distributeConfigurations fuel a.containers (.finite a.cellSizeFactors) a.traversals
      a.loadEstimators a.dataLayouts a.newton3 a.interactionType r R =
        .ok ⟨cs.map DistConf.cont, .finite (cs.map DistConf.csf), cs.map DistConf.trav, cs.map DistConf.le, cs.map DistConf.lay, cs.map DistConf.n3⟩) ∧
      (0 < cs.length ∧ (R ≤ N → cs.length ≤ N / R + 1) ∧ (N ≤ R → cs.length = 1)) ∧
      ∀ c, c ∈ cs ↔ ∃ k, (k, r) ∈ trace N R (N + R + 1) (Pos.start N R) ∧ (allConfs (distOptions a))[k]? = some c := by
    intro r
    by_cases hr : r < R
    · obtain ⟨cs, off, bs, e1, e2, -, e3⟩ := distribute_eq ha (csfs := .finite a.cellSizeFactors) rfl hr hN (fuel := N + R + 1) (by omega)
      obtain ⟨c1, c2⟩ := start_count hN0 (R := R) (fuel := N + R + 1) (by omega) hr
      refine ⟨cs, fun _ => ⟨fun fuel hf => ?_, ⟨?_, fun h => ?_, fun h => ?_⟩, e3⟩⟩
      · obtain ⟨d, rfl⟩ : ∃ d, fuel = N + R + 1 + d := ⟨fuel - (N + R + 1), by omega⟩
        exact distribute_mono e1 d
      · rw [e2]
        rcases Nat.le_total R N with h | h
        · have := Nat.div_pos h hR
          rcases c1 h with h | h <;> omega
        · rw [c2 h]; omega
      · rw [e2]
        rcases c1 h with h | h <;> omega
      · rw [e2, c2 h]
    · exact ⟨[], fun h => absurd h hr⟩
  choose cs hcs using hex
  have hsub : ∀ r < R, ∀ c ∈ cs r, c ∈ allConfs (distOptions a) := by
    intro r hr c hc
    obtain ⟨k, -, hk⟩ := ((hcs r hr).2.2 c).1 hc
    exact List.mem_of_getElem? hk
  refine ⟨N, fun r => ⟨(cs r).map DistConf.cont, .finite ((cs r).map DistConf.csf), (cs r).map DistConf.trav, (cs r).map DistConf.le,
    (cs r).map DistConf.lay, (cs r).map DistConf.n3⟩, fun r => (cs r).map DistConf.csf, hs, fun r hr => ?_, fun o ho => ?_⟩
  · obtain ⟨h1, h2, h3⟩ := hcs r hr
    refine ⟨h1, rfl, fun n hn => ?_, ?_, ?_, ?_, ?_, ?_, ?_⟩
    · simp only [List.length_map, List.mem_cons, List.not_mem_nil, or_false, or_self] at hn
      rw [hn]
      exact h2
    all_goals
      intro y hy
      obtain ⟨x, hx, rfl⟩ := List.mem_map.1 hy
      have hm := mem_allConfs.1 (hsub r hr x hx)
    · exact hm.1
    · exact hm.2.1
    · exact travsOf_subset hm.2.2.1
    · rcases applicable_subset hm.2.2.2.1 with h | h
      · exact List.mem_cons_of_mem _ h
      · rw [h]; exact List.mem_cons_self
    · exact hm.2.2.2.2.1
    · exact hm.2.2.2.2.2
  · obtain ⟨k, hk, hkx⟩ := List.getElem_of_mem (valid_mem ho)
    obtain ⟨r, hr, hmem⟩ := (trace_covers (N + R + 1) (Pos.start N R) (.inl (start_inv hN0 hR)) (by unfold left; split <;> omega)).1 k (Nat.zero_le _) (by omega)
    refine ⟨r, hr, ?_⟩
    have hm := ((hcs r hr).2.2 _).2 ⟨k, hmem, by rw [List.getElem?_eq_getElem hk, hkx]⟩
    exact valid_local ho (fs' := a.cellSizeFactors) (hsub r hr) hm _ (List.mem_map.2 ⟨_, hm, rfl⟩)

/-- C118 for an interval of cell size factors, if the number of ranks is a proper multiple of the number `N` of configurations (without factors): every rank
gets a part of the interval, and every factor in the interval is in the part of a rank together with every combination of the other options. Missing: other
numbers of ranks, for which this is wrong (see below). -/
theorem C118_interval_partial {a : AllowedOptions} (ha : Distributable a) {N : Nat}
    (hN : searchSpaceSize ⟨a.containers, [-1], a.traversals, a.loadEstimators, a.dataLayouts, a.newton3, a.interactionType⟩ = some N) {q : Nat} (hq : 2 ≤ q)
    {lo hi : Rat} (hlh : lo ≤ hi) : ∃ (part : Nat → LocalOptions) (l h : Nat → Rat),
    (∀ r < N * q, (∀ fuel, N + N * q < fuel → distributeConfigurations fuel a.containers (.interval lo hi) a.traversals a.loadEstimators a.dataLayouts
        a.newton3 a.interactionType r (N * q) = .ok (part r)) ∧
      (part r).csfs = .interval (l r) (h r) ∧ lo ≤ l r ∧ h r ≤ hi ∧ h r - l r = (hi - lo) / q) ∧
    ∀ x, lo ≤ x → x ≤ hi → ∀ o, Valid { a with cellSizeFactors := [x] } o →
      ∃ r < N * q, l r ≤ x ∧ x ≤ h r ∧ Valid ((part r).allowed [x] a.interactionType) o := by
  have ha' : Distributable { a with cellSizeFactors := [-1] } := ⟨ha.containers, ha.traversals, by simp, ha.dataLayouts, ha.newton3⟩
  have hN0 := allConfs_pos ha'
  have hs : searchSpaceSize (distOptions { a with cellSizeFactors := [-1] }) = some (allConfs (distOptions { a with cellSizeFactors := [-1] })).length :=
    searchSpaceSize_eq ha'.good.comp
  have hlen : (allConfs (distOptions { a with cellSizeFactors := [-1] })).length = N := by
    have h : searchSpaceSize (distOptions { a with cellSizeFactors := [-1] }) = some N := hN
    rw [h] at hs
    exact (Option.some.inj hs).symm
  rw [hlen] at hN0
  have hR : 0 < N * q := Nat.mul_pos hN0 (by omega)
  have hNR : N < N * q := by
    have := Nat.mul_le_mul_left N hq
    omega
  have hdiv : N ∣ N * q := Nat.dvd_mul_right N q
  have hqq : N * q / N = q := Nat.mul_div_cancel_left q hN0
  have hex : ∀ r, ∃ cs : List DistConf, r < N * q → (∀ fuel, N + N * q < fuel → distributeConfigurations fuel a.containers (.interval lo hi) a.traversals
      a.loadEstimators a.dataLayouts a.newton3 a.interactionType r (N * q) =
        .ok ⟨cs.map DistConf.cont, .interval (lo + (hi - lo) / q * (r % q : Nat)) (lo + (hi - lo) / q * ((r % q : Nat) + 1)), cs.map DistConf.trav,
          cs.map DistConf.le, cs.map DistConf.lay, cs.map DistConf.n3⟩) ∧
      ∀ c, c ∈ cs ↔ ∃ k, (k, r) ∈ trace N (N * q) (N + N * q + 1) (Pos.start N (N * q)) ∧
        (allConfs (distOptions { a with cellSizeFactors := [-1] }))[k]? = some c := by
    intro r
    by_cases hr : r < N * q
    · obtain ⟨cs, off, bs, e1, -, e2, e3⟩ := distribute_eq ha' (csfs := .interval lo hi) rfl hr hlen (fuel := N + N * q + 1) (by omega)
      refine ⟨cs, fun _ => ⟨fun fuel hf => ?_, e3⟩⟩
      obtain ⟨d, rfl⟩ : ∃ d, fuel = N + N * q + 1 + d := ⟨fuel - (N + N * q + 1), by omega⟩
      obtain ⟨e4, e5⟩ := e2 hNR hdiv
      rw [hqq] at e4 e5
      rw [e4, e5] at e1
      exact distribute_mono e1 d
    · exact ⟨[], fun h => absurd h hr⟩
  choose cs hcs using hex
  have hq0 : (0 : Rat) < q := by exact_mod_cast (by omega : 0 < q)
  have hd : 0 ≤ (hi - lo) / q := div_nonneg (by linarith) hq0.le
  have hdq : (hi - lo) / q * q = hi - lo := by field_simp
  refine ⟨fun r => ⟨(cs r).map DistConf.cont, .interval (lo + (hi - lo) / q * (r % q : Nat)) (lo + (hi - lo) / q * ((r % q : Nat) + 1)),
    (cs r).map DistConf.trav, (cs r).map DistConf.le, (cs r).map DistConf.lay, (cs r).map DistConf.n3⟩,
    fun r => lo + (hi - lo) / q * (r % q : Nat), fun r => lo + (hi - lo) / q * ((r % q : Nat) + 1), fun r hr => ⟨(hcs r hr).1, rfl, ?_, ?_, by ring⟩,
    fun x hx1 hx2 o ho => ?_⟩
  · have : (0 : Rat) ≤ (r % q : Nat) := Nat.cast_nonneg _
    nlinarith
  · have h1 : r % q + 1 ≤ q := Nat.mod_lt r (by omega)
    have h2 : ((r % q : Nat) : Rat) + 1 ≤ q := by exact_mod_cast h1
    have := mul_le_mul_of_nonneg_left h2 hd
    linarith
  · have hm : (⟨o.container, -1, o.traversal, o.loadEstimator, o.dataLayout, o.newton3⟩ : DistConf) ∈
        allConfs (distOptions { a with cellSizeFactors := [-1] }) := by
      have h := mem_allConfs.1 (valid_mem ho)
      exact mem_allConfs.2 ⟨h.1, List.mem_singleton.2 rfl, h.2.2.1, h.2.2.2.1, h.2.2.2.2.1, h.2.2.2.2.2⟩
    obtain ⟨k, hk, hkx⟩ := List.getElem_of_mem hm
    rw [hlen] at hk
    -- the part of the interval
    obtain ⟨j, hj, hj1, hj2⟩ : ∃ j < q, lo + (hi - lo) / q * (j : Nat) ≤ x ∧ x ≤ lo + (hi - lo) / q * ((j : Nat) + 1) := by
      have key : ∀ n : Nat, x ≤ lo + (hi - lo) / q * n → n ≠ 0 → ∃ j < n, lo + (hi - lo) / q * (j : Nat) ≤ x ∧ x ≤ lo + (hi - lo) / q * ((j : Nat) + 1) := by
        intro n
        induction n with
        | zero => intro _ h; exact absurd rfl h
        | succ n ih =>
          intro h _
          push_cast at h
          by_cases hle : lo + (hi - lo) / q * (n : Nat) ≤ x
          · exact ⟨n, by omega, hle, h⟩
          · have hn : n ≠ 0 := by
              rintro rfl
              apply hle
              simpa using hx1
            obtain ⟨j, hj, h1⟩ := ih (not_le.1 hle).le hn
            exact ⟨j, by omega, h1⟩
      exact key q (by rw [hdq]; linarith) (by omega)
    have hr : k * q + j < N * q := by
      have : (k + 1) * q ≤ N * q := Nat.mul_le_mul_right q hk
      rw [Nat.add_mul] at this
      omega
    have hmod : (k * q + j) % q = j := by rw [Nat.add_comm, Nat.add_mul_mod_self_right, Nat.mod_eq_of_lt hj]
    have hdv : (k * q + j) / q = k := by
      rw [Nat.add_comm, Nat.add_mul_div_right _ _ (by omega), Nat.div_eq_of_lt hj, Nat.zero_add]
    have hok : Ok N (N * q) (Pos.start N (N * q)) := .inl (start_inv hN0 hR)
    obtain ⟨k', -, hmem⟩ := (trace_covers (N + N * q + 1) (Pos.start N (N * q)) hok (by unfold left; split <;> omega)).2.1 (k * q + j) (Nat.zero_le _) hr
    have hk' : k' = k := by
      have := trace_div hNR hdiv (N + N * q + 1) (Pos.start N (N * q)) hok (by
        show (if N * q ≥ N then N * q % N else N % (N * q)) = 0
        rw [if_pos hNR.le]
        exact Nat.mod_eq_zero_of_dvd hdiv) (by
        show (if N * q ≥ N then N * q / N - 1 else N / (N * q) - 1) < N * q / N
        rw [if_pos hNR.le]
        omega) _ hmem
      rw [hqq, hdv] at this
      exact this
    subst hk'
    refine ⟨k' * q + j, hr, ?_, ?_, ?_⟩
    · show lo + (hi - lo) / q * (((k' * q + j) % q : Nat) : Rat) ≤ x
      rw [hmod]; exact hj1
    · show x ≤ lo + (hi - lo) / q * ((((k' * q + j) % q : Nat) : Rat) + 1)
      rw [hmod]; exact hj2
    · have hm' := ((hcs _ hr).2 _).2 ⟨k', hmem, by rw [List.getElem?_eq_getElem (by omega), hkx]⟩
      refine valid_local ho (fs' := [-1]) (fun c hc => ?_) hm' [x] ho.cellSizeFactor
      obtain ⟨k2, -, hk2⟩ := ((hcs _ hr).2 c).1 hc
      exact List.mem_of_getElem? hk2

/-- Against C118: if the first allowed container has no allowed traversal, an end iterator is dereferenced, whatever the rank. (The search space of a single
process just has no configuration of this container.) -/
theorem C118_violated_no_traversal (fuel r R : Nat) :
    distributeConfigurations fuel [.directSum, .linkedCells] (.finite [1]) [.lc_c08] [.none] [.aos] [true] .pairwise r R = .ub := by
  rfl

/-- Against C118: the options of a rank allow the load estimator `none` for `lc_sliced_balanced`, although only the other one is allowed. -/
theorem C118_violated_forbidden_estimator :
    ∃ l, distributeConfigurations 10 [.linkedCells] (.finite [1]) [.lc_c08, .lc_sliced_balanced] [.squaredParticlesPerCell] [.aos] [true] .pairwise 0 1 = .ok l ∧
      l.conts = [.linkedCells, .linkedCells] ∧ l.travs = [.lc_c08, .lc_sliced_balanced] ∧ l.les = [.none, .squaredParticlesPerCell] ∧
      Offers .linkedCells .lc_sliced_balanced .none := by
  exact ⟨_, rfl, rfl, rfl, rfl, .lcNone⟩

/-- Against C118: two configurations for two or three ranks. The last rank gets factors from 2 to 3 although they were to be between 1 and 2. -/
theorem C118_violated_interval_outside :
    (distributeConfigurations 10 [.linkedCells] (.interval 1 2) [.lc_c08] [.none] [.aos] [true, false] .pairwise 1 2 =
      .ok ⟨[.linkedCells], .interval 2 3, [.lc_c08], [.none], [.aos], [false]⟩) ∧
    distributeConfigurations 10 [.linkedCells] (.interval 1 2) [.lc_c08] [.none] [.aos] [true, false] .pairwise 2 3 =
      .ok ⟨[.linkedCells], .interval 2 3, [.lc_c08], [.none], [.aos], [false]⟩ := by
  decide +kernel

/-- Against C118: four configurations for two ranks. Only the first rank has structures of arrays, and the factors between 3/2 and 2 are for the other rank. -/
theorem C118_violated_interval_lost :
    (distributeConfigurations 10 [.linkedCells] (.interval 1 2) [.lc_c08] [.none] [.soa, .aos] [true, false] .pairwise 0 2 =
      .ok ⟨[.linkedCells, .linkedCells], .interval 1 (3 / 2), [.lc_c08, .lc_c08], [.none, .none], [.soa, .soa], [true, false]⟩) ∧
    distributeConfigurations 10 [.linkedCells] (.interval 1 2) [.lc_c08] [.none] [.soa, .aos] [true, false] .pairwise 1 2 =
      .ok ⟨[.linkedCells, .linkedCells], .interval (3 / 2) 2, [.lc_c08, .lc_c08], [.none, .none], [.aos, .aos], [true, false]⟩ := by
  decide +kernel

/-- Options that can be distributed: two containers. -/
example : Distributable ⟨[.linkedCells, .directSum], [.lc_c08, .ds_sequential], [.none], [.aos, .soa], [true], [1, 2], .pairwise⟩ := by
  refine ⟨by simp, fun c hc => ?_, by simp, by simp, by simp⟩
  rcases List.mem_cons.1 hc with rfl | hc
  · exact ⟨.lc_c08, by simp, .inl rfl, rfl⟩
  · cases List.mem_singleton.1 hc
    exact ⟨.ds_sequential, by simp, .inl rfl, rfl⟩

/-- The last three of eight configurations are for the last of three ranks. -/
example : (distributeConfigurations 20 [.linkedCells, .directSum] (.finite [1, 2]) [.lc_c08, .ds_sequential] [.none] [.aos, .soa] [true] .pairwise 2 3).bind
    (fun l => .ok (l.conts, l.csfs)) = .ok ([.directSum, .directSum, .directSum], .finite [1, 2, 2]) := by
  decide +kernel

/-- Two configurations, of which every one is for two of four ranks: the second rank gets the upper half of the factors. -/
example : searchSpaceSize ⟨[.linkedCells], [-1], [.lc_c08], [.none], [.aos], [true, false], .pairwise⟩ = some 2 ∧
    distributeConfigurations 10 [.linkedCells] (.interval 1 2) [.lc_c08] [.none] [.aos] [true, false] .pairwise 1 4 =
      .ok ⟨[.linkedCells], .interval (3 / 2) 2, [.lc_c08], [.none], [.aos], [true]⟩ := by
  decide +kernel

end Verif
