import Verif.Spec.Thermostat
import Verif.Lemmas.Num
import Mathlib.Tactic.Ring
import Mathlib.Tactic.FieldSimp
import Mathlib.Tactic.Linarith
import Mathlib.Analysis.SpecialFunctions.Sqrt
/-!
# C90 — the thermostat brings the temperature to the target

Whatever the distribution of the particles over ranks and threads: one application of the thermostat changes the temperature of every type of particles
towards the target, by exactly `deltaTemperature` or the remaining difference if it is smaller, by scaling all velocities of the type by the same factor.
Applied often enough it reaches the target and stays there.

Partial: all temperatures have to be positive (`C90_violated_at_rest`, `C90_violated_target_zero`), and the temperature is that of owned and halo particles
together, so that of the simulation is not brought to the target if there are halo particles (`C90_violated_halo`, `C90_violated_calcTemperature`).
-/
namespace Verif
open Spec

section
variable {K : Type} [Field K] [LinearOrder K]

theorem foldl_add_sum {α M : Type} [AddCommMonoid M] (f : α → M) (l : List α) (a : M) : l.foldl (fun e x => e + f x) a = a + (l.map f).sum := by
  induction l generalizing a with
  | nil => simp
  | cons x l ih => rw [List.foldl_cons, ih, List.map_cons, List.sum_cons, add_assoc]

theorem foldl_if_sum {α M : Type} [AddCommMonoid M] (f : α → M) (P : α → Prop) [DecidablePred P] (l : List α) (a : M) :
    l.foldl (fun e x => if P x then e + f x else e) a = a + ((l.filter fun x => P x).map f).sum := by
  induction l generalizing a with
  | nil => simp
  | cons x l ih =>
    rw [List.foldl_cons, ih, List.filter_cons]
    by_cases h : P x
    · simp only [h, if_true, decide_true, List.map_cons, List.sum_cons, add_assoc]
    · simp only [h, if_false, decide_false, Bool.false_eq_true]

/-- A sum by ranks and threads is the sum over all. -/
theorem sum_by_threads {α M : Type} [AddCommMonoid M] (g : List α → M) (h0 : g [] = 0) (happ : ∀ a b, g (a ++ b) = g a + g b) (ranks : List (List (List α))) :
    (ranks.map fun r => (r.map g).sum).sum = g ranks.flatten.flatten := by
  have h1 : ∀ r : List (List α), (r.map g).sum = g r.flatten := by
    intro r
    induction r with
    | nil => exact h0.symm
    | cons a r ih => rw [List.map_cons, List.sum_cons, ih, List.flatten_cons, happ]
  induction ranks with
  | nil => exact h0.symm
  | cons r ranks ih => rw [List.map_cons, List.sum_cons, ih, h1, List.flatten_cons, List.flatten_append, happ]

theorem totalEnergy_eq (T : ThermoTypes K) (t : Nat) (ranks : List (ThermoRank K)) :
    T.totalEnergy t ranks = (((ranks.flatten.flatten.filter (·.visited)).filter fun p => p.type = t).map T.energyMul2).sum := by
  unfold ThermoTypes.totalEnergy
  have : (fun (e : Num K) (r : ThermoRank K) => e + r.foldl (fun e l => e + T.threadEnergy t l) 0) =
      fun e r => e + (r.map (T.threadEnergy t)).sum := by
    funext e r; rw [foldl_add_sum, zero_add]
  rw [this, foldl_add_sum, zero_add, sum_by_threads (T.threadEnergy t) rfl]
  · unfold ThermoTypes.threadEnergy
    rw [foldl_if_sum, zero_add]
  · intro a b
    unfold ThermoTypes.threadEnergy
    rw [foldl_if_sum, foldl_if_sum, foldl_if_sum, zero_add, zero_add, zero_add, List.filter_append, List.filter_append, List.map_append, List.sum_append]

theorem totalCount_eq (t : Nat) (ranks : List (ThermoRank K)) :
    totalCount t ranks = ((ranks.flatten.flatten.filter (·.visited)).filter fun p => p.type = t).length := by
  have hsum : ∀ l : List (ThermoParticle K), (l.map fun _ => 1).sum = l.length := by
    intro l; rw [List.map_const', List.sum_replicate, smul_eq_mul, mul_one]
  unfold totalCount
  have : (fun (n : Nat) (r : ThermoRank K) => n + r.foldl (fun n l => n + threadCount t l) 0) = fun n r => n + (r.map (threadCount t)).sum := by
    funext e r; rw [foldl_add_sum, zero_add]
  rw [this, foldl_add_sum, zero_add, sum_by_threads (threadCount t) rfl]
  · unfold threadCount
    rw [foldl_if_sum, zero_add, hsum]
  · intro a b
    unfold threadCount
    rw [foldl_if_sum, foldl_if_sum, foldl_if_sum, zero_add, zero_add, zero_add, List.filter_append, List.filter_append, List.map_append, List.sum_append]

theorem contains_filter {ranks : List (ThermoRank K)} {l : List (Mover K)} (h : Contains ranks l) (t : Nat) :
    (((ranks.flatten.flatten.filter (·.visited)).filter fun p => p.type = t).map fun p => (p.type, p.v)) =
      (l.filter fun q => q.type = t).map fun q => (q.type, q.v.fin) := by
  have := congrArg (List.filter fun x => decide (x.1 = t)) h
  rwa [List.filter_map, List.filter_map] at this

theorem finite_inner (a : V3 K) : a.fin.inner a.fin = .fin (normSq a) := by
  unfold V3.inner normSq V3.fin
  simp only [Num.fin_mul, Num.fin_add]
  congr 1; ring

theorem totalEnergy_fin {ranks : List (ThermoRank K)} {l : List (Mover K)} (h : Contains ranks l) (T : ThermoTypes K) (t : Nat) :
    T.totalEnergy t ranks = .fin (((l.filter fun q => q.type = t).map fun q => T.mass q.type * normSq q.v).sum) := by
  rw [totalEnergy_eq]
  have e1 : ((ranks.flatten.flatten.filter (·.visited)).filter fun p => p.type = t).map T.energyMul2 =
      (((ranks.flatten.flatten.filter (·.visited)).filter fun p => p.type = t).map fun p => (p.type, p.v)).map
        fun x => Num.fin (T.mass x.1) * x.2.inner x.2 := by
    rw [List.map_map]; rfl
  rw [e1, contains_filter h t, List.map_map]
  have e2 : ((fun x : Nat × V3 (Num K) => Num.fin (T.mass x.1) * x.2.inner x.2) ∘ fun q : Mover K => (q.type, q.v.fin)) =
      fun q => Num.fin (T.mass q.type * normSq q.v) := by
    funext q
    show Num.fin (T.mass q.type) * q.v.fin.inner q.v.fin = _
    rw [finite_inner, Num.fin_mul]
  rw [e2]
  generalize l.filter _ = l'
  induction l' with
  | nil => rfl
  | cons q l' ih => rw [List.map_cons, List.sum_cons, ih, Num.fin_add, List.map_cons, List.sum_cons]

theorem totalCount_fin {ranks : List (ThermoRank K)} {l : List (Mover K)} (h : Contains ranks l) (t : Nat) :
    totalCount t ranks = (l.filter fun q => q.type = t).length := by
  rw [totalCount_eq]
  have := congrArg List.length (contains_filter h t)
  rwa [List.length_map, List.length_map] at this

theorem unknownType_false {ranks : List (ThermoRank K)} {l : List (Mover K)} (h : Contains ranks l) {T : ThermoTypes K}
    (ht : ∀ q ∈ l, q.type < T.number) : T.unknownType ranks = false := by
  unfold ThermoTypes.unknownType
  refine Bool.eq_false_iff.2 fun hb => ?_
  rw [List.any_eq_true] at hb
  obtain ⟨r, hr, hb⟩ := hb
  rw [List.any_eq_true] at hb
  obtain ⟨s, hs, hb⟩ := hb
  rw [List.any_eq_true] at hb
  obtain ⟨p, hp, hb⟩ := hb
  rw [Bool.and_eq_true, decide_eq_true_eq] at hb
  have hm : (p.type, p.v) ∈ (ranks.flatten.flatten.filter fun p => p.visited).map (fun p => (p.type, p.v)) :=
    List.mem_map.2 ⟨p, List.mem_filter.2 ⟨List.mem_flatten.2 ⟨s, List.mem_flatten.2 ⟨r, hr, hs⟩, hp⟩, hb.1⟩, rfl⟩
  rw [h, List.mem_map] at hm
  obtain ⟨q, hq, e⟩ := hm
  have := ht q hq
  have e1 : q.type = p.type := congrArg Prod.fst e
  omega

variable [IsStrictOrderedRing K]

/-- The temperatures that the thermostat computes are those of all owned and halo particles, whatever the distribution over ranks and threads. -/
theorem C90_temperature {ranks : List (ThermoRank K)} {l : List (Mover K)} (h : Contains ranks l) {T : ThermoTypes K}
    (ht : ∀ q ∈ l, q.type < T.number) :
    ∃ cur, T.temperatureComponent ranks = .ok cur ∧ ∀ q ∈ l, cur q.type = .fin (temperatureOf T.mass q.type l) := by
  unfold ThermoTypes.temperatureComponent
  rw [unknownType_false h ht]
  refine ⟨_, rfl, fun q hq => ?_⟩
  rw [totalEnergy_fin h, totalCount_fin h]
  have hpos : 0 < ((l.filter fun p => p.type = q.type).length : K) := by
    rw [Nat.cast_pos, List.length_pos_iff]
    intro e
    have : q ∈ l.filter fun p => p.type = q.type := List.mem_filter.2 ⟨hq, by simp⟩
    rw [e] at this; cases this
  rw [Num.fin_div (by positivity)]
  unfold temperatureOf
  rw [mul_comm (3 : K)]

theorem immediate_eq (target δ T : K) (hδ : 0 ≤ δ) : immediateTarget (.fin T) (.fin target) (.fin δ) = .fin (towards target δ T) := by
  unfold immediateTarget towards numMin numMax
  rw [Num.fin_add, Num.fin_sub]
  simp only [numLess, decide_eq_true_eq]
  by_cases h : T < target
  · rw [if_pos h, abs_of_pos (by linarith)]
    by_cases h2 : target < T + δ
    · rw [if_pos h2, if_pos (by linarith)]
    · rw [if_neg h2]
      by_cases h3 : target - T ≤ δ
      · rw [if_pos h3]; congr 1; linarith
      · rw [if_neg h3, if_pos h]
  · rw [if_neg h]
    have h0 : target - T ≤ 0 := by linarith [not_lt.1 h]
    rw [abs_of_nonpos h0]
    by_cases h2 : T - δ < target
    · rw [if_pos h2, if_pos (by linarith)]
    · rw [if_neg h2]
      by_cases h3 : -(target - T) ≤ δ
      · rw [if_pos h3]; congr 1; linarith
      · rw [if_neg h3, if_neg h]

theorem towards_nonneg {target δ T : K} (ht : 0 ≤ target) (hT : 0 ≤ T) (hδ : 0 ≤ δ) : 0 ≤ towards target δ T := by
  unfold towards
  split
  · exact ht
  · next h =>
    split
    · linarith
    · next h2 =>
      rw [abs_of_nonpos (by linarith)] at h
      linarith

theorem towards_pos {target δ T : K} (ht : 0 < target) (hT : 0 < T) (hδ : 0 ≤ δ) : 0 < towards target δ T := by
  unfold towards
  split
  · exact ht
  · next h =>
    split
    · linarith
    · next h2 =>
      rw [abs_of_nonpos (by linarith)] at h
      linarith

/-- How far it is to the target after one application. -/
theorem towards_distance (target : K) {δ : K} (T : K) (hδ : 0 ≤ δ) : |target - towards target δ T| = max 0 (|target - T| - δ) := by
  unfold towards
  split
  · next h => rw [sub_self, abs_zero, max_eq_left (by linarith)]
  · next h =>
    rw [not_le] at h
    rw [max_eq_right (by linarith)]
    split
    · next h2 =>
      rw [abs_of_pos (by linarith)] at h ⊢
      rw [abs_of_pos (by linarith)]; linarith
    · next h2 =>
      rw [abs_of_nonpos (by linarith)] at h ⊢
      rw [abs_of_nonpos (by linarith)]; linarith

omit [IsStrictOrderedRing K] in
theorem temperatureOf_scale (mass : Nat → K) (t : Nat) (l : List (Mover K)) (f : Nat → K) :
    temperatureOf mass t (l.map fun q => { q with v := q.v.scale (f q.type) }) = f t ^ 2 * temperatureOf mass t l := by
  have hfilt : (l.map fun q => { q with v := q.v.scale (f q.type) }).filter (fun p => decide (p.type = t)) =
      (l.filter fun p => decide (p.type = t)).map fun q => { q with v := q.v.scale (f q.type) } := by
    rw [List.filter_map]; rfl
  unfold temperatureOf
  rw [hfilt, List.length_map, List.map_map, ← mul_div_assoc]
  congr 1
  have : ∀ q ∈ l.filter (fun p => decide (p.type = t)),
      ((fun p : Mover K => mass p.type * normSq p.v) ∘ fun q : Mover K => { q with v := q.v.scale (f q.type) }) q = f t ^ 2 * (mass q.type * normSq q.v) := by
    intro q hq
    have ht : q.type = t := of_decide_eq_true (List.mem_filter.1 hq).2
    show mass q.type * normSq (q.v.scale (f q.type)) = _
    unfold normSq
    simp only [V3.scale_x, V3.scale_y, V3.scale_z]
    rw [ht]; ring
  rw [List.map_congr_left this, List.sum_map_mul_left]

/-- One application. -/
theorem C90_apply_partial {ranks : List (ThermoRank K)} {l : List (Mover K)} (h : Contains ranks l) {T : ThermoTypes K}
    (ht : ∀ q ∈ l, q.type < T.number) {sqrt : K → Num K} (hs : SqrtLaws sqrt) {target delta : K} (htar : 0 ≤ target)
    (hpos : ∀ q ∈ l, 0 < temperatureOf T.mass q.type l) :
    ∃ (ranks' : List (ThermoRank K)) (factor : Nat → K), T.apply sqrt target delta ranks = .ok ranks' ∧
      Contains ranks' (l.map fun q => { q with v := q.v.scale (factor q.type) }) ∧
      ∀ q ∈ l, 0 ≤ factor q.type ∧
        temperatureOf T.mass q.type (l.map fun q => { q with v := q.v.scale (factor q.type) }) = towards target |delta| (temperatureOf T.mass q.type l) := by
  obtain ⟨cur, hc, hcur⟩ := C90_temperature h ht
  have hδ := abs_nonneg delta
  have hfac : ∀ q ∈ l, ∃ y, scalingOf sqrt target delta (cur q.type) = .fin y ∧ 0 ≤ y ∧
      y ^ 2 = towards target |delta| (temperatureOf T.mass q.type l) / temperatureOf T.mass q.type l := by
    intro q hq
    have h0 := hpos q hq
    unfold scalingOf
    rw [hcur q hq, immediate_eq _ _ _ hδ, Num.fin_div h0.ne']
    exact hs.nonneg _ (div_nonneg (towards_nonneg htar h0.le hδ) h0.le)
  let factor : Nat → K := fun t => match scalingOf sqrt target delta (cur t) with | .fin y => y | .nonFinite => 0
  have hfactor : ∀ q ∈ l, scalingOf sqrt target delta (cur q.type) = .fin (factor q.type) ∧ 0 ≤ factor q.type ∧
      factor q.type ^ 2 = towards target |delta| (temperatureOf T.mass q.type l) / temperatureOf T.mass q.type l := by
    intro q hq
    obtain ⟨y, e, hy, hy2⟩ := hfac q hq
    have : factor q.type = y := by
      show (match scalingOf sqrt target delta (cur q.type) with | .fin y => y | .nonFinite => 0) = y
      rw [e]
    rw [this]; exact ⟨e, hy, hy2⟩
  refine ⟨ranks.map fun r => r.map fun l => l.map fun p =>
      if p.visited then { p with v := p.v.scale (scalingOf sqrt target delta (cur p.type)) } else p, factor, ?_, ?_, ?_⟩
  · unfold ThermoTypes.apply
    rw [hc]; rfl
  · unfold Contains
    have e1 : (ranks.map fun r => r.map fun l => l.map fun p =>
        if p.visited then { p with v := p.v.scale (scalingOf sqrt target delta (cur p.type)) } else p).flatten.flatten =
        ranks.flatten.flatten.map fun p : ThermoParticle K =>
          if p.visited then { p with v := p.v.scale (scalingOf sqrt target delta (cur p.type)) } else p := by
      rw [← List.map_flatten, ← List.map_flatten]
    rw [e1, List.filter_map]
    have e2 : ((fun p : ThermoParticle K => p.visited) ∘ fun p : ThermoParticle K =>
        if p.visited then { p with v := p.v.scale (scalingOf sqrt target delta (cur p.type)) } else p) = fun p => p.visited := by
      funext p
      show ThermoParticle.visited (if p.visited = true then _ else p) = p.visited
      split
      · rfl
      · rfl
    rw [e2, List.map_map]
    have e3 : ∀ p ∈ ranks.flatten.flatten.filter (fun p => p.visited), ((fun p : ThermoParticle K => (p.type, p.v)) ∘ fun p : ThermoParticle K =>
        if p.visited then { p with v := p.v.scale (scalingOf sqrt target delta (cur p.type)) } else p) p =
        ((fun x : Nat × V3 (Num K) => (x.1, x.2.scale (scalingOf sqrt target delta (cur x.1)))) ∘ fun p : ThermoParticle K => (p.type, p.v)) p := by
      intro p hp
      have := (List.mem_filter.1 hp).2
      show (fun p : ThermoParticle K => (p.type, p.v)) (if p.visited = true then _ else p) = _
      rw [if_pos this]; rfl
    rw [List.map_congr_left e3, ← List.map_map, h, List.map_map, List.map_map]
    refine List.map_congr_left fun q hq => ?_
    show (q.type, q.v.fin.scale (scalingOf sqrt target delta (cur q.type))) = (q.type, (q.v.scale (factor q.type)).fin)
    rw [(hfactor q hq).1]; rfl
  · intro q hq
    obtain ⟨-, h1, h2⟩ := hfactor q hq
    refine ⟨h1, ?_⟩
    rw [temperatureOf_scale, h2, div_mul_cancel₀ _ (hpos q hq).ne']

/-- Any number of applications: the distance to the target shrinks by `|deltaTemperature|` each time until it is zero. -/
theorem C90_reaches_target_partial {T : ThermoTypes K} {sqrt : K → Num K} (hs : SqrtLaws sqrt) {target delta : K} (htar : 0 < target) (n : Nat)
    {ranks : List (ThermoRank K)} {l : List (Mover K)} (h : Contains ranks l)
    (ht : ∀ q ∈ l, q.type < T.number) (hpos : ∀ q ∈ l, 0 < temperatureOf T.mass q.type l) :
    ∃ (ranks' : List (ThermoRank K)) (factor : Nat → K), T.applyTimes sqrt target delta n ranks = .ok ranks' ∧
      Contains ranks' (l.map fun q => { q with v := q.v.scale (factor q.type) }) ∧
      ∀ q ∈ l, 0 ≤ factor q.type ∧
        |target - temperatureOf T.mass q.type (l.map fun q => { q with v := q.v.scale (factor q.type) })| =
          max 0 (|target - temperatureOf T.mass q.type l| - n * |delta|) := by
  induction n generalizing ranks l with
  | zero =>
    refine ⟨ranks, fun _ => 1, rfl, ?_, fun q _ => ⟨zero_le_one, ?_⟩⟩
    · have : (l.map fun q => ({ q with v := q.v.scale 1 } : Mover K)) = l := by
        conv_rhs => rw [← List.map_id l]
        refine List.map_congr_left fun q _ => ?_
        have : q.v.scale 1 = q.v := by apply V3.ext' <;> simp
        rw [this]; rfl
      rw [this]; exact h
    · rw [temperatureOf_scale T.mass q.type l (fun _ => 1), one_pow, one_mul, Nat.cast_zero, zero_mul, sub_zero, max_eq_right (abs_nonneg _)]
  | succ n ih =>
    obtain ⟨r1, f1, e1, c1, t1⟩ := C90_apply_partial (delta := delta) h ht hs htar.le hpos
    have hmem : ∀ q' ∈ l.map (fun q => ({ q with v := q.v.scale (f1 q.type) } : Mover K)), ∃ q ∈ l, q'.type = q.type := by
      intro q' hq'
      obtain ⟨q, hq, rfl⟩ := List.mem_map.1 hq'
      exact ⟨q, hq, rfl⟩
    obtain ⟨r2, f2, e2, c2, t2⟩ := ih c1 (fun q' hq' => by obtain ⟨q, hq, e⟩ := hmem q' hq'; rw [e]; exact ht q hq)
      (fun q' hq' => by
        obtain ⟨q, hq, e⟩ := hmem q' hq'
        rw [e, (t1 q hq).2]
        exact towards_pos htar (hpos q hq) (abs_nonneg _))
    have hll : ((l.map fun q => ({ q with v := q.v.scale (f1 q.type) } : Mover K)).map fun q => ({ q with v := q.v.scale (f2 q.type) } : Mover K)) =
        l.map fun q => { q with v := q.v.scale (f1 q.type * f2 q.type) } := by
      rw [List.map_map]
      refine List.map_congr_left fun q _ => ?_
      show ({ q with v := (q.v.scale (f1 q.type)).scale (f2 q.type) } : Mover K) = _
      have : (q.v.scale (f1 q.type)).scale (f2 q.type) = q.v.scale (f1 q.type * f2 q.type) := by
        apply V3.ext' <;> simp [mul_assoc]
      rw [this]
    refine ⟨r2, fun t => f1 t * f2 t, ?_, by rw [← hll]; exact c2, fun q hq => ?_⟩
    · unfold ThermoTypes.applyTimes
      rw [e1]; exact e2
    · have h2 := t2 { q with v := q.v.scale (f1 q.type) } (List.mem_map.2 ⟨q, hq, rfl⟩)
      refine ⟨mul_nonneg (t1 q hq).1 h2.1, ?_⟩
      rw [← hll]
      have h3 := h2.2
      dsimp only at h3
      rw [h3, (t1 q hq).2, towards_distance _ _ (abs_nonneg _)]
      have hn : 0 ≤ (n : K) * |delta| := by positivity
      push_cast
      rcases le_total 0 (|target - temperatureOf T.mass q.type l| - |delta|) with hle | hle
      · rw [max_eq_right hle]; congr 1; ring
      · rw [max_eq_left hle, max_eq_left (by linarith), max_eq_left (by linarith)]

/-- In particular, once enough applications have taken place the temperature is the target, for good. -/
theorem C90_stays_at_target_partial {T : ThermoTypes K} {sqrt : K → Num K} (hs : SqrtLaws sqrt) {target delta : K} (htar : 0 < target) (n : Nat)
    {ranks : List (ThermoRank K)} {l : List (Mover K)} (h : Contains ranks l) (ht : ∀ q ∈ l, q.type < T.number)
    (hpos : ∀ q ∈ l, 0 < temperatureOf T.mass q.type l) (hn : ∀ q ∈ l, |target - temperatureOf T.mass q.type l| ≤ n * |delta|) :
    ∃ ranks' cur, T.applyTimes sqrt target delta n ranks = .ok ranks' ∧ T.temperatureComponent ranks' = .ok cur ∧
      ∀ q ∈ l, cur q.type = .fin target := by
  obtain ⟨r, f, e, c, t⟩ := C90_reaches_target_partial hs (delta := delta) htar n h ht hpos
  obtain ⟨cur, hc, hcur⟩ := C90_temperature (T := T) c (fun q' hq' => by obtain ⟨q, hq, rfl⟩ := List.mem_map.1 hq'; exact ht q hq)
  refine ⟨r, cur, e, hc, fun q hq => ?_⟩
  have h1 := hcur { q with v := q.v.scale (f q.type) } (List.mem_map.2 ⟨q, hq, rfl⟩)
  dsimp only at h1
  rw [h1]
  have h2 := (t q hq).2
  rw [max_eq_left (by linarith [hn q hq]), abs_eq_zero] at h2
  congr 1; linarith

/-! ### Where the code falls short -/

omit [Field K] [LinearOrder K] [IsStrictOrderedRing K] in
theorem visited_owned (t : Nat) (v : V3 (Num K)) : (⟨t, v, .owned⟩ : ThermoParticle K).visited = true :=
  show fulfillsOwnership ibOwnedOrHalo .owned = true by decide

omit [Field K] [LinearOrder K] [IsStrictOrderedRing K] in
theorem visited_halo (t : Nat) (v : V3 (Num K)) : (⟨t, v, .halo⟩ : ThermoParticle K).visited = true :=
  show fulfillsOwnership ibOwnedOrHalo .halo = true by decide

/-- Particles at rest (no Brownian motion): their velocities are not finite after the thermostat, whatever the target. -/
theorem C90_violated_at_rest (sqrt : K → Num K) (target delta : K) (T : ThermoTypes K) (hT : T.number = 1) (n : Nat) :
    T.apply sqrt target delta [[List.replicate (n + 1) ⟨0, (0 : V3 K).fin, .owned⟩]] =
      .ok [[List.replicate (n + 1) ⟨0, ⟨.nonFinite, .nonFinite, .nonFinite⟩, .owned⟩]] := by
  have hc : Contains [[List.replicate (n + 1) (⟨0, (0 : V3 K).fin, .owned⟩ : ThermoParticle K)]] (List.replicate (n + 1) ⟨0, 0⟩) := by
    unfold Contains
    have hvis : (⟨0, (0 : V3 K).fin, .owned⟩ : ThermoParticle K).visited = true := visited_owned _ _
    simp only [List.flatten_cons, List.flatten_nil, List.append_nil]
    rw [List.filter_replicate, hvis, if_pos rfl, List.map_replicate, List.map_replicate]
  have ht : ∀ q ∈ (List.replicate (n + 1) ⟨0, 0⟩ : List (Mover K)), q.type < T.number := by
    intro q hq; rw [List.eq_of_mem_replicate hq, hT]; exact Nat.one_pos
  obtain ⟨cur, e, hcur⟩ := C90_temperature hc ht
  have h0 : cur 0 = .fin 0 := by
    have := hcur ⟨0, 0⟩ (by rw [List.replicate_succ]; exact List.mem_cons_self)
    rw [this]
    congr 1
    unfold temperatureOf
    have : (List.replicate (n + 1) (⟨0, 0⟩ : Mover K)).filter (fun p => decide (p.type = 0)) = List.replicate (n + 1) ⟨0, 0⟩ := by
      rw [List.filter_replicate]; simp
    dsimp only
    rw [this, List.map_replicate, List.sum_replicate]
    have : normSq (0 : V3 K) = 0 := by unfold normSq; simp
    rw [this, mul_zero, smul_zero, zero_div]
  have hsc : scalingOf sqrt target delta (cur 0) = .nonFinite := by
    unfold scalingOf
    rw [h0]
    have : ∀ a : Num K, a / Num.fin 0 = .nonFinite := by
      intro a
      cases a with
      | fin a => show Num.div _ _ = _; unfold Num.div; simp
      | nonFinite => rfl
    rw [this]; rfl
  unfold ThermoTypes.apply
  rw [e]
  show Outcome.ok _ = _
  congr 1
  simp only [List.map_cons, List.map_nil, List.map_replicate]
  have hvis : (⟨0, (0 : V3 K).fin, .owned⟩ : ThermoParticle K).visited = true := visited_owned _ _
  rw [if_pos hvis, hsc]
  congr 3

/-- A target of zero: the application that reaches it gives velocities zero, the next one velocities that are not finite. -/
theorem C90_violated_target_zero {sqrt : K → Num K} (hs : SqrtLaws sqrt) (T : ThermoTypes K) (hT : T.number = 1) (hm : T.mass 0 = 1) :
    T.apply sqrt 0 1 [[[⟨0, (⟨1, 1, 1⟩ : V3 K).fin, .owned⟩]]] = .ok [[[⟨0, (0 : V3 K).fin, .owned⟩]]] ∧
    T.applyTimes sqrt 0 1 2 [[[⟨0, (⟨1, 1, 1⟩ : V3 K).fin, .owned⟩]]] = .ok [[[⟨0, ⟨.nonFinite, .nonFinite, .nonFinite⟩, .owned⟩]]] := by
  have hc : Contains [[[(⟨0, (⟨1, 1, 1⟩ : V3 K).fin, .owned⟩ : ThermoParticle K)]]] [⟨0, ⟨1, 1, 1⟩⟩] := by
    unfold Contains; simp [visited_owned]
  have hte : temperatureOf T.mass 0 [(⟨0, ⟨1, 1, 1⟩⟩ : Mover K)] = 1 := by
    unfold temperatureOf normSq
    simp [hm]
    norm_num
  obtain ⟨cur, e, hcur⟩ := C90_temperature hc (T := T) (by intro q hq; rw [List.mem_singleton.1 hq, hT]; exact Nat.one_pos)
  have h1 : cur 0 = .fin 1 := by rw [hcur ⟨0, ⟨1, 1, 1⟩⟩ List.mem_cons_self, hte]
  have hsc : scalingOf sqrt 0 1 (cur 0) = .fin 0 := by
    unfold scalingOf
    rw [h1, immediate_eq _ _ _ (abs_nonneg _), Num.fin_div one_ne_zero]
    have : towards (0 : K) |1| 1 = 0 := by unfold towards; simp
    rw [this, zero_div]
    obtain ⟨y, hy, -, hy2⟩ := hs.nonneg 0 le_rfl
    show sqrt 0 = _
    rw [hy, pow_eq_zero_iff two_ne_zero |>.1 hy2]
  have hfirst : T.apply sqrt 0 1 [[[⟨0, (⟨1, 1, 1⟩ : V3 K).fin, .owned⟩]]] = .ok [[[⟨0, (0 : V3 K).fin, .owned⟩]]] := by
    unfold ThermoTypes.apply
    rw [e]
    show Outcome.ok _ = _
    congr 1
    simp only [List.map_cons, List.map_nil]
    have hvis : (⟨0, (⟨1, 1, 1⟩ : V3 K).fin, .owned⟩ : ThermoParticle K).visited = true := visited_owned _ _
    rw [if_pos hvis, hsc]
    have : (⟨1, 1, 1⟩ : V3 K).fin.scale (.fin 0) = (0 : V3 K).fin := by
      apply V3.ext' <;> simp
    rw [this]
  refine ⟨hfirst, ?_⟩
  unfold ThermoTypes.applyTimes
  rw [hfirst]
  show ThermoTypes.applyTimes T sqrt 0 1 1 _ = _
  unfold ThermoTypes.applyTimes
  have := C90_violated_at_rest sqrt 0 1 T hT 0
  rw [show List.replicate (0 + 1) (⟨0, (0 : V3 K).fin, .owned⟩ : ThermoParticle K) = [⟨0, (0 : V3 K).fin, .owned⟩] from rfl] at this
  rw [this]; rfl

/-- Halo particles count: two owned particles, one of which has a periodic image. The thermostat is to set the temperature to 4 (without limit), but
the temperature of the two particles is `10/3` afterwards. -/
theorem C90_violated_halo {sqrt : K → Num K} (hs : SqrtLaws sqrt) (T : ThermoTypes K) (hT : T.number = 1) (hm : T.mass 0 = 1) :
    ∃ a b c : V3 K, T.apply sqrt 4 1000 [[[⟨0, (⟨1, 0, 0⟩ : V3 K).fin, .owned⟩, ⟨0, (⟨0, 2, 0⟩ : V3 K).fin, .owned⟩,
        ⟨0, (⟨0, 2, 0⟩ : V3 K).fin, .halo⟩]]] = .ok [[[⟨0, a.fin, .owned⟩, ⟨0, b.fin, .owned⟩, ⟨0, c.fin, .halo⟩]]] ∧
      temperatureOf T.mass 0 [⟨0, a⟩, ⟨0, b⟩] = 10 / 3 := by
  have hc : Contains [[[(⟨0, (⟨1, 0, 0⟩ : V3 K).fin, .owned⟩ : ThermoParticle K), ⟨0, (⟨0, 2, 0⟩ : V3 K).fin, .owned⟩,
        ⟨0, (⟨0, 2, 0⟩ : V3 K).fin, .halo⟩]]] [⟨0, ⟨1, 0, 0⟩⟩, ⟨0, ⟨0, 2, 0⟩⟩, ⟨0, ⟨0, 2, 0⟩⟩] := by
    unfold Contains; simp [visited_owned, visited_halo]
  have hte : temperatureOf T.mass 0 [(⟨0, ⟨1, 0, 0⟩⟩ : Mover K), ⟨0, ⟨0, 2, 0⟩⟩, ⟨0, ⟨0, 2, 0⟩⟩] = 1 := by
    unfold temperatureOf normSq
    simp [hm]
    norm_num
  obtain ⟨cur, e, hcur⟩ := C90_temperature hc (T := T) (by
    intro q hq
    simp only [List.mem_cons, List.not_mem_nil, or_false] at hq
    rcases hq with rfl | rfl | rfl <;> (rw [hT]; exact Nat.one_pos))
  have h1 : cur 0 = .fin 1 := by rw [hcur ⟨0, ⟨1, 0, 0⟩⟩ List.mem_cons_self, hte]
  have hsc : scalingOf sqrt 4 1000 (cur 0) = .fin 2 := by
    unfold scalingOf
    rw [h1, immediate_eq _ _ _ (abs_nonneg _), Num.fin_div one_ne_zero]
    have : towards (4 : K) |1000| 1 = 4 := by
      unfold towards
      rw [if_pos]
      rw [abs_of_pos (by norm_num), abs_of_pos (by norm_num)]; norm_num
    rw [this, div_one]
    obtain ⟨y, hy, hy0, hy2⟩ := hs.nonneg 4 (by norm_num)
    show sqrt 4 = _
    rw [hy]
    congr 1
    nlinarith
  refine ⟨⟨2, 0, 0⟩, ⟨0, 4, 0⟩, ⟨0, 4, 0⟩, ?_, ?_⟩
  · unfold ThermoTypes.apply
    rw [e]
    show Outcome.ok _ = _
    congr 1
    simp only [List.map_cons, List.map_nil]
    rw [if_pos (visited_owned _ _), if_pos (visited_owned _ _), if_pos (visited_halo _ _), hsc]
    have e1 : (⟨1, 0, 0⟩ : V3 K).fin.scale (.fin 2) = (⟨2, 0, 0⟩ : V3 K).fin := by apply V3.ext' <;> simp
    have e2 : (⟨0, 2, 0⟩ : V3 K).fin.scale (.fin 2) = (⟨0, 4, 0⟩ : V3 K).fin := by
      apply V3.ext' <;> simp
      norm_num
    rw [e1, e2]
  · unfold temperatureOf normSq
    simp [hm]
    norm_num

/-- `calcTemperature` adds the energies of owned and halo particles but divides by the number of the owned ones. -/
theorem C90_violated_calcTemperature (T : ThermoTypes K) (hm : T.mass 0 = 1) :
    T.temperature [[⟨0, (⟨1, 1, 1⟩ : V3 K).fin, .owned⟩, ⟨0, (⟨1, 1, 1⟩ : V3 K).fin, .halo⟩]] = .fin 2 ∧
    temperatureOf T.mass 0 [(⟨0, ⟨1, 1, 1⟩⟩ : Mover K)] = 1 := by
  constructor
  · unfold ThermoTypes.temperature
    have hv1 : (⟨0, (⟨1, 1, 1⟩ : V3 K).fin, .owned⟩ : ThermoParticle K).visited = true := visited_owned _ _
    have hv2 : (⟨0, (⟨1, 1, 1⟩ : V3 K).fin, .halo⟩ : ThermoParticle K).visited = true := visited_halo _ _
    have he : ∀ o, T.energyMul2 ⟨0, (⟨1, 1, 1⟩ : V3 K).fin, o⟩ = .fin 3 := by
      intro o
      unfold ThermoTypes.energyMul2
      dsimp only
      rw [finite_inner, hm, Num.fin_mul]
      congr 1
      unfold normSq; norm_num
    have h1 : fulfillsOwnership ibOwned .owned = true := by decide
    have h2 : fulfillsOwnership ibOwned .halo = false := by decide
    simp only [List.foldl_cons, List.foldl_nil, List.filter_cons, List.filter_nil, hv1, hv2, if_true, he, List.map_cons, List.map_nil, List.countP_cons,
      List.countP_nil, h1, h2, List.sum_cons, List.sum_nil]
    rw [zero_add, zero_add, Num.fin_add]
    simp only [Bool.false_eq_true, if_false]
    rw [Num.fin_div (by norm_num)]
    congr 1
    norm_num
  · unfold temperatureOf normSq
    simp [hm]
    norm_num

end

/-! ### Non-vacuity -/

private noncomputable def exSqrt : ℝ → Num ℝ := fun x => if x < 0 then .nonFinite else .fin (Real.sqrt x)
private theorem exSqrt_laws : SqrtLaws exSqrt :=
  ⟨fun x hx => ⟨Real.sqrt x, by unfold exSqrt; rw [if_neg (not_lt.2 hx)], Real.sqrt_nonneg x, Real.sq_sqrt hx⟩⟩

/-- Two ranks, two threads, two types. -/
example : ∃ ranks' cur, (⟨2, fun t => t + 1⟩ : ThermoTypes ℝ).applyTimes exSqrt 3 (1/2) 4
      [[[⟨0, (⟨1, 1, 1⟩ : V3 ℝ).fin, .owned⟩], [⟨1, (⟨1, 1, 1⟩ : V3 ℝ).fin, .owned⟩]], [[], [⟨0, (⟨1, 1, 1⟩ : V3 ℝ).fin, .owned⟩]]] = .ok ranks' ∧
    (⟨2, fun t => t + 1⟩ : ThermoTypes ℝ).temperatureComponent ranks' = .ok cur ∧ cur 0 = .fin 3 ∧ cur 1 = .fin 3 := by
  have h0 : temperatureOf (fun t => (t + 1 : ℝ)) 0 [⟨0, ⟨1, 1, 1⟩⟩, ⟨1, ⟨1, 1, 1⟩⟩, ⟨0, ⟨1, 1, 1⟩⟩] = 1 := by
    unfold temperatureOf normSq; simp; norm_num
  have h1 : temperatureOf (fun t => (t + 1 : ℝ)) 1 [⟨0, ⟨1, 1, 1⟩⟩, ⟨1, ⟨1, 1, 1⟩⟩, ⟨0, ⟨1, 1, 1⟩⟩] = 2 := by
    unfold temperatureOf normSq; simp; norm_num
  obtain ⟨r, cur, e1, e2, e3⟩ := C90_stays_at_target_partial (K := ℝ) (T := ⟨2, fun t => t + 1⟩) exSqrt_laws (target := 3) (delta := 1/2) (by norm_num) 4
    (ranks := [[[⟨0, (⟨1, 1, 1⟩ : V3 ℝ).fin, .owned⟩], [⟨1, (⟨1, 1, 1⟩ : V3 ℝ).fin, .owned⟩]], [[], [⟨0, (⟨1, 1, 1⟩ : V3 ℝ).fin, .owned⟩]]])
    (l := [⟨0, ⟨1, 1, 1⟩⟩, ⟨1, ⟨1, 1, 1⟩⟩, ⟨0, ⟨1, 1, 1⟩⟩]) (by unfold Contains; simp [visited_owned]) (by
      intro q hq
      simp only [List.mem_cons, List.not_mem_nil, or_false] at hq
      rcases hq with rfl | rfl | rfl <;> decide) (by
      intro q hq
      simp only [List.mem_cons, List.not_mem_nil, or_false] at hq
      rcases hq with rfl | rfl | rfl
      · dsimp only; rw [h0]; norm_num
      · dsimp only; rw [h1]; norm_num
      · dsimp only; rw [h0]; norm_num) (by
      intro q hq
      simp only [List.mem_cons, List.not_mem_nil, or_false] at hq
      rcases hq with rfl | rfl | rfl
      · dsimp only; rw [h0]; norm_num [abs_of_pos]
      · dsimp only; rw [h1]; norm_num [abs_of_pos]
      · dsimp only; rw [h0]; norm_num [abs_of_pos])
  exact ⟨r, cur, e1, e2, e3 ⟨0, ⟨1, 1, 1⟩⟩ (by simp), e3 ⟨1, ⟨1, 1, 1⟩⟩ (by simp)⟩

end Verif
