import Verif.Model.SlowConfigFilter
import Mathlib.Tactic.Linarith
/-!
# C39 — the slow-configuration filter never discards the best configuration
-/
namespace Verif

namespace Spec
variable {C : Type} [DecidableEq C]

/-- Collected evidence as the code assumes it (EvidenceCollection.cpp:48): every configuration is measured at most once per tuning phase and later
evidence is of a later phase; configurations are keys of a map; values are not negative and below the largest `long`. -/
structure GoodEvidence (m : EvidenceMap C) : Prop where
  keys : (m.map Prod.fst).Nodup
  increasing : ∀ p ∈ m, p.2.Pairwise fun e f => e.tuningPhase < f.tuningPhase
  nonneg : ∀ p ∈ m, ∀ e ∈ p.2, 0 ≤ e.value
  small : ∀ p ∈ m, ∀ e ∈ p.2, e.value < longMax
  some : ∃ p ∈ m, p.2 ≠ []

/-- Configuration `c` was measured with value `v` in phase `phase`. -/
def Measured (m : EvidenceMap C) (phase : Nat) (c : C) (v : Int) : Prop := ∃ p ∈ m, p.1 = c ∧ ∃ e ∈ p.2, e.tuningPhase = phase ∧ e.value = v

/-- `phase` is the latest phase with a measurement. -/
def IsLatest (m : EvidenceMap C) (phase : Nat) : Prop :=
  (∃ c v, Measured m phase c v) ∧ ∀ ph c v, Measured m ph c v → ph ≤ phase

/-- `c` is a fastest configuration of the phase, with value `v`. -/
def IsBest (m : EvidenceMap C) (phase : Nat) (c : C) (v : Int) : Prop :=
  Measured m phase c v ∧ ∀ c' v', Measured m phase c' v' → v ≤ v'

/-- `c` was measured in the latest phase, slower than `range` times the fastest configuration. -/
def MeasuredSlow (range : Rat) (m : EvidenceMap C) (c : C) : Prop :=
  ∃ phase v b w, IsLatest m phase ∧ Measured m phase c v ∧ IsBest m phase b w ∧ (w : Rat) * range < v

end Spec

open Spec

section
variable {C : Type} [DecidableEq C]

theorem foldl_max_ge (l : List Evidence) : ∀ a : Nat, a ≤ l.foldl (fun a e => max a e.tuningPhase) a ∧
    (∀ e ∈ l, e.tuningPhase ≤ l.foldl (fun a e => max a e.tuningPhase) a) ∧
    (l.foldl (fun a e => max a e.tuningPhase) a = a ∨ ∃ e ∈ l, l.foldl (fun a e => max a e.tuningPhase) a = e.tuningPhase) := by
  induction l with
  | nil => intro a; exact ⟨Nat.le_refl _, by simp, .inl rfl⟩
  | cons e l ih =>
    intro a
    rw [List.foldl_cons]
    obtain ⟨h1, h2, h3⟩ := ih (max a e.tuningPhase)
    refine ⟨by omega, ?_, ?_⟩
    · intro f hf
      rcases List.mem_cons.1 hf with rfl | hf
      · omega
      · exact h2 f hf
    · rcases h3 with h3 | ⟨f, hf, h3⟩
      · rw [h3]
        by_cases hx : a ≤ e.tuningPhase
        · exact .inr ⟨e, List.mem_cons_self .., by omega⟩
        · exact .inl (by omega)
      · exact .inr ⟨f, List.mem_cons_of_mem _ hf, h3⟩

theorem latestPhase_isLatest {m : EvidenceMap C} (hm : GoodEvidence m) : IsLatest m (latestPhase m) := by
  obtain ⟨-, h2, h3⟩ := foldl_max_ge (m.flatMap Prod.snd) 0
  obtain ⟨p0, hp0, hne⟩ := hm.some
  obtain ⟨e0, he0⟩ := List.exists_mem_of_ne_nil _ hne
  have hmem : ∀ p ∈ m, ∀ e ∈ p.2, e ∈ m.flatMap Prod.snd := fun p hp e he => List.mem_flatMap.2 ⟨p, hp, he⟩
  refine ⟨?_, ?_⟩
  · rcases h3 with h3 | ⟨e, he, h3⟩
    · refine ⟨p0.1, e0.value, p0, hp0, rfl, e0, he0, ?_, rfl⟩
      have := h2 e0 (hmem _ hp0 _ he0)
      unfold latestPhase
      omega
    · obtain ⟨p, hp, he⟩ := List.mem_flatMap.1 he
      exact ⟨p.1, e.value, p, hp, rfl, e, he, h3.symm, rfl⟩
  · rintro ph c v ⟨p, hp, -, e, he, rfl, -⟩
    exact h2 e (hmem p hp e he)

/-- Two pieces of evidence of the same configuration and phase are the same. -/
theorem phase_unique {es : List Evidence} (h : es.Pairwise fun e f => e.tuningPhase < f.tuningPhase) {e f : Evidence} (he : e ∈ es) (hf : f ∈ es)
    (hp : e.tuningPhase = f.tuningPhase) : e = f := by
  induction es with
  | nil => cases he
  | cons x es ih =>
    rw [List.pairwise_cons] at h
    rcases List.mem_cons.1 he with he | he <;> rcases List.mem_cons.1 hf with hf | hf
    · rw [he, hf]
    · have := h.1 f hf; rw [he] at hp; omega
    · have := h.1 e he; rw [hf] at hp; omega
    · exact ih h.2 he hf

/-- The search for the optimum. -/
theorem optimalLoop_best (phase : Nat) (m : EvidenceMap C) (hinc : ∀ p ∈ m, p.2.Pairwise fun e f => e.tuningPhase < f.tuningPhase) :
    ∀ (c : Option C) (best : Int),
      (optimalLoop phase m c best).2 ≤ best ∧
      (∀ c' v', Measured m phase c' v' → (optimalLoop phase m c best).2 ≤ v') ∧
      (optimalLoop phase m c best = (c, best) ∨ ∃ c', (optimalLoop phase m c best).1 = some c' ∧ Measured m phase c' (optimalLoop phase m c best).2) := by
  induction m with
  | nil => intro c best; exact ⟨le_refl _, fun c' v' ⟨p, hp, _⟩ => (by cases hp), .inl rfl⟩
  | cons ke m ih =>
    obtain ⟨k, es⟩ := ke
    intro c best
    have ih' := ih (fun p hp => hinc p (List.mem_cons_of_mem _ hp))
    have hk := hinc (k, es) (List.mem_cons_self ..)
    unfold optimalLoop
    cases hb : betterEvidence phase best es with
    | some e =>
      unfold betterEvidence at hb
      have he := List.mem_of_find?_eq_some hb
      have hp := List.find?_some hb
      simp only [Bool.and_eq_true, decide_eq_true_eq] at hp
      rw [List.mem_reverse] at he
      obtain ⟨h1, h2, h3⟩ := ih' (some k) e.value
      refine ⟨by simp only; omega, ?_, ?_⟩
      · rintro c' v' ⟨p, hpm, rfl, f, hf, hfp, rfl⟩
        rcases List.mem_cons.1 hpm with rfl | hpm
        · rw [phase_unique hk hf he (by rw [hfp, hp.1])]; exact h1
        · exact h2 _ _ ⟨p, hpm, rfl, f, hf, hfp, rfl⟩
      · refine .inr ?_
        rcases h3 with h3 | ⟨c', h3, p, hpm, h4⟩
        · refine ⟨k, by simp only [h3], (k, es), List.mem_cons_self .., rfl, e, he, hp.1, by simp only [h3]⟩
        · exact ⟨c', h3, p, List.mem_cons_of_mem _ hpm, h4⟩
    | none =>
      unfold betterEvidence at hb
      rw [List.find?_eq_none] at hb
      obtain ⟨h1, h2, h3⟩ := ih' c best
      refine ⟨h1, ?_, ?_⟩
      · rintro c' v' ⟨p, hpm, rfl, f, hf, hfp, rfl⟩
        rcases List.mem_cons.1 hpm with rfl | hpm
        · have := hb f (List.mem_reverse.2 hf)
          simp only [Bool.and_eq_true, decide_eq_true_eq, not_and] at this
          have := this hfp
          simp only; omega
        · exact h2 _ _ ⟨p, hpm, rfl, f, hf, hfp, rfl⟩
      · rcases h3 with h3 | ⟨c', h3, p, hpm, h4⟩
        · exact .inl h3
        · exact .inr ⟨c', h3, p, List.mem_cons_of_mem _ hpm, h4⟩

private theorem getEvidence_of_mem {m : EvidenceMap C} (hk : (m.map Prod.fst).Nodup) {p : C × List Evidence} (hp : p ∈ m) : getEvidence m p.1 = p.2 := by
  induction m with
  | nil => cases hp
  | cons q m ih =>
    obtain ⟨k, es⟩ := q
    rw [List.map_cons, List.nodup_cons] at hk
    unfold getEvidence
    rcases List.mem_cons.1 hp with rfl | hp
    · rw [if_pos rfl]
    · rw [if_neg, ih hk.2 hp]
      intro hx
      exact hk.1 (List.mem_map.2 ⟨p, hp, hx.symm⟩)

theorem getEvidence_mem {m : EvidenceMap C} {c : C} (h : getEvidence m c ≠ []) : (c, getEvidence m c) ∈ m := by
  induction m with
  | nil => exact absurd rfl h
  | cons q m ih =>
    obtain ⟨k, es⟩ := q
    unfold getEvidence at h ⊢
    by_cases hk : k = c
    · simp only [if_pos hk] at h ⊢
      rw [← hk]; exact List.mem_cons_self ..
    · simp only [if_neg hk] at h ⊢
      exact List.mem_cons_of_mem _ (ih h)

theorem getLast_latest {es : List Evidence} (h : es.Pairwise fun e f => e.tuningPhase < f.tuningPhase) {l : Evidence} (hl : es.getLast? = some l)
    {e : Evidence} (he : e ∈ es) : e.tuningPhase ≤ l.tuningPhase := by
  obtain ⟨xs, rfl⟩ := List.getLast?_eq_some_iff.1 hl
  rcases List.mem_append.1 he with he | he
  · exact Nat.le_of_lt ((List.pairwise_append.1 h).2.2 e he l (List.mem_singleton.2 rfl))
  · rw [List.mem_singleton] at he; rw [he]

/-- What ends up on the blacklist. -/
theorem blacklisted_iff {m : EvidenceMap C} (hm : GoodEvidence m) {range : Rat} (hr : 0 ≤ range) {b : C} {w : Int} (hb : IsBest m (latestPhase m) b w)
    (c : C) : blacklisted m (latestPhase m) (truncToLong (w * range)) c = true ↔ MeasuredSlow range m c := by
  have hl := latestPhase_isLatest hm
  have hw : 0 ≤ w := by
    obtain ⟨⟨p, hp, -, e, he, -, rfl⟩, -⟩ := hb
    exact hm.nonneg p hp e he
  have hx : (0 : Rat) ≤ (w : Rat) * range := mul_nonneg (by exact_mod_cast hw) hr
  have ht : truncToLong (w * range) = ⌊(w : Rat) * range⌋ := by unfold truncToLong; rw [if_pos hx]
  have hcmp : ∀ v : Int, v > truncToLong (w * range) ↔ (w : Rat) * range < v := by
    intro v
    rw [ht, gt_iff_lt, Int.floor_lt]
  unfold blacklisted
  constructor
  · intro h
    cases hg : (getEvidence m c).getLast? with
    | none => rw [hg] at h; cases h
    | some e =>
      rw [hg] at h
      simp only [Bool.and_eq_true, decide_eq_true_eq] at h
      have hmem : e ∈ getEvidence m c := List.mem_of_getLast? hg
      have := getEvidence_mem (m := m) (c := c) (by intro hn; rw [hn] at hmem; cases hmem)
      exact ⟨latestPhase m, e.value, b, w, hl, ⟨_, this, rfl, e, hmem, h.1, rfl⟩, hb, (hcmp _).1 h.2⟩
  · rintro ⟨phase, v, b', w', hl', ⟨p, hp, rfl, e, he, hep, rfl⟩, hb', hlt⟩
    have hph : phase = latestPhase m := by
      obtain ⟨c1, v1, m1⟩ := hl.1
      obtain ⟨c2, v2, m2⟩ := hl'.1
      have := hl.2 _ _ _ m2
      have := hl'.2 _ _ _ m1
      omega
    subst hph
    have hww : w' = w := le_antisymm (hb'.2 _ _ hb.1) (hb.2 _ _ hb'.1)
    subst hww
    rw [getEvidence_of_mem hm.keys hp]
    cases hg : p.2.getLast? with
    | none => rw [List.getLast?_eq_none_iff] at hg; rw [hg] at he; cases he
    | some l =>
      have h1 := getLast_latest (hm.increasing p hp) hg he
      have h2 := hl.2 l.tuningPhase p.1 l.value ⟨p, hp, rfl, l, List.mem_of_getLast? hg, rfl, rfl⟩
      have : e = l := phase_unique (hm.increasing p hp) he (List.mem_of_getLast? hg) (by omega)
      subst this
      simp only [Bool.and_eq_true, decide_eq_true_eq]
      exact ⟨by omega, (hcmp _).2 hlt⟩

/-- One call. -/
theorem slowConfigFilter_spec {range : Rat} (hr : 0 ≤ range) {m : EvidenceMap C} (hm : GoodEvidence m) (b queue : List C) :
    ∃ b' queue', slowConfigFilter range b queue m = .ok (b', queue') ∧
      (∀ c, c ∈ b' ↔ c ∈ b ∨ c ∈ queue ∧ MeasuredSlow range m c) ∧ queue'.Sublist queue ∧
      ∀ c ∈ queue, (c ∈ queue' ↔ c ∉ b ∧ ¬ MeasuredSlow range m c) := by
  have hne : m.isEmpty = false := by
    obtain ⟨p, hp, -⟩ := hm.some
    cases m with
    | nil => cases hp
    | cons _ _ => rfl
  obtain ⟨h1, h2, h3⟩ := optimalLoop_best (latestPhase m) m hm.increasing none longMax
  have hl := latestPhase_isLatest hm
  obtain ⟨c0, v0, hm0⟩ := hl.1
  have hopt : ∃ c', (optimalLoop (latestPhase m) m none longMax).1 = some c' ∧
      Measured m (latestPhase m) c' (optimalLoop (latestPhase m) m none longMax).2 := by
    rcases h3 with h3 | h3
    · exfalso
      have := h2 c0 v0 hm0
      rw [h3] at this
      obtain ⟨p, hp, -, e, he, -, rfl⟩ := hm0
      have := hm.small p hp e he
      simp only at *
      omega
    · exact h3
  obtain ⟨c', e1, e2⟩ := hopt
  have hbest : IsBest m (latestPhase m) c' (optimalLoop (latestPhase m) m none longMax).2 := ⟨e2, h2⟩
  have hiff := blacklisted_iff hm hr hbest
  set thr := truncToLong ((optimalLoop (latestPhase m) m none longMax).2 * range) with hthr
  refine ⟨b ++ queue.filter (blacklisted m (latestPhase m) thr), queue.filter fun c => !decide (c ∈ b ++ queue.filter (blacklisted m (latestPhase m) thr)), ?_, ?_, ?_, ?_⟩
  · unfold slowConfigFilter
    rw [hne]
    have : optimalLoop (latestPhase m) m none longMax = (some c', (optimalLoop (latestPhase m) m none longMax).2) := by rw [← e1]
    simp only [Bool.false_eq_true, if_false]
    rw [this]
  · intro c
    rw [List.mem_append, List.mem_filter, hiff]
  · exact List.filter_sublist
  · intro c hc
    rw [List.mem_filter]
    simp only [List.mem_append, List.mem_filter, Bool.not_eq_true', decide_eq_false_iff_not, not_or, not_and]
    constructor
    · rintro ⟨-, h, h'⟩
      exact ⟨h, fun hs => h' hc ((hiff c).2 hs)⟩
    · rintro ⟨h, h'⟩
      exact ⟨hc, h, fun _ hs => h' ((hiff c).1 hs)⟩

/-- C39 (partial), one call of a fresh filter: a configuration is removed from the queue exactly if it was measured in the latest phase slower than the relative
range times the fastest one; nothing else changes; the fastest configuration is never removed. Missing: several measurements of a configuration
in one phase, see `C39_violated_repeated_measurement`. -/
theorem C39_only_slow_removed_partial {range : Rat} (hr : 1 ≤ range) {m : EvidenceMap C} (hm : GoodEvidence m) (queue : List C) :
    ∃ b' queue', slowConfigFilter range [] queue m = .ok (b', queue') ∧ queue'.Sublist queue ∧
      (∀ c ∈ queue, c ∉ queue' ↔ MeasuredSlow range m c) ∧
      ∀ phase c v, IsLatest m phase → IsBest m phase c v → c ∈ queue → c ∈ queue' := by
  obtain ⟨b', queue', h1, h2, h3, h4⟩ := slowConfigFilter_spec (by linarith : 0 ≤ range) hm [] queue
  refine ⟨b', queue', h1, h3, ?_, ?_⟩
  · intro c hc
    rw [h4 c hc]; simp
  · intro phase c v hl hb hc
    rw [h4 c hc]
    refine ⟨by simp, ?_⟩
    rintro ⟨phase', v', b, w, hl', hm', hb', hlt⟩
    have hph : phase = phase' := by
      obtain ⟨c1, v1, m1⟩ := hl.1
      obtain ⟨c2, v2, m2⟩ := hl'.1
      have := hl.2 _ _ _ m2
      have := hl'.2 _ _ _ m1
      omega
    subst hph
    have hw : w = v := le_antisymm (hb'.2 _ _ hb.1) (hb.2 _ _ hb'.1)
    subst hw
    -- c is measured once in the phase, with the best value
    have hvv : v' = w := by
      obtain ⟨p, hp, hpc, e, he, hep, hev⟩ := hm'
      obtain ⟨p2, hp2, hpc2, e2, he2, hep2, hev2⟩ := hb.1
      have : p = p2 := by
        have hp1 := getEvidence_of_mem hm.keys hp
        have hp3 := getEvidence_of_mem hm.keys hp2
        have : p.1 = p2.1 := by rw [hpc, hpc2]
        exact Prod.ext this (by rw [← hp1, ← hp3, this])
      subst this
      rw [← hev, ← hev2, phase_unique (hm.increasing p hp) he he2 (by rw [hep, hep2])]
    rw [hvv] at hlt
    have hw0 : (0 : Rat) ≤ w := by
      obtain ⟨p, hp, -, e, he, -, rfl⟩ := hb.1
      exact_mod_cast hm.nonneg p hp e he
    nlinarith

/-- C39 (partial), over any sequence of calls: a configuration is missing from the queue of a call exactly if in this or an earlier call it was in the
queue and measured slow. -/
theorem C39_over_time_partial {range : Rat} (hr : 1 ≤ range) (calls : List (List C × EvidenceMap C)) (hm : ∀ k ∈ calls, GoodEvidence k.2) :
    ∃ b qs, slowFilterCalls range [] calls = .ok (b, qs) ∧ qs.length = calls.length ∧
      ∀ (i : Nat) (q : List C) (m : EvidenceMap C) (q' : List C), calls[i]? = some (q, m) → qs[i]? = some q' → ∀ c ∈ q,
        (c ∉ q' ↔ ∃ j ≤ i, ∃ k : List C × EvidenceMap C, calls[j]? = some k ∧ c ∈ k.1 ∧ MeasuredSlow range k.2 c) := by
  suffices H : ∀ b0 : List C, ∃ b qs, slowFilterCalls range b0 calls = .ok (b, qs) ∧ qs.length = calls.length ∧
      ∀ (i : Nat) (q : List C) (m : EvidenceMap C) (q' : List C), calls[i]? = some (q, m) → qs[i]? = some q' → ∀ c ∈ q,
        (c ∉ q' ↔ c ∈ b0 ∨ ∃ j ≤ i, ∃ k : List C × EvidenceMap C, calls[j]? = some k ∧ c ∈ k.1 ∧ MeasuredSlow range k.2 c) by
    obtain ⟨b, qs, h1, h2, h3⟩ := H []
    refine ⟨b, qs, h1, h2, fun i q m q' hi hq c hc => ?_⟩
    rw [h3 i q m q' hi hq c hc]; simp
  induction calls with
  | nil => intro b0; exact ⟨b0, [], rfl, rfl, fun i q m q' hi => by simp at hi⟩
  | cons call calls ih =>
    intro b0
    obtain ⟨q0, m0⟩ := call
    obtain ⟨b1, q1, a1, a2, a3, a4⟩ := slowConfigFilter_spec (by linarith : 0 ≤ range) (hm _ (List.mem_cons_self ..)) b0 q0
    obtain ⟨b2, qs, c1, c2, c3⟩ := ih (fun k hk => hm k (List.mem_cons_of_mem _ hk)) b1
    refine ⟨b2, q1 :: qs, ?_, by simp [c2], ?_⟩
    · unfold slowFilterCalls
      rw [a1]
      show (slowFilterCalls range b1 calls).bind _ = _
      rw [c1]; rfl
    · intro i q m q' hi hq c hc
      cases i with
      | zero =>
        simp only [List.getElem?_cons_zero, Option.some.injEq, Prod.mk.injEq] at hi hq
        obtain ⟨rfl, rfl⟩ := hi
        subst hq
        have := a4 c hc
        constructor
        · intro hn
          by_cases hb : c ∈ b0
          · exact .inl hb
          · refine .inr ⟨0, Nat.le_refl _, _, rfl, hc, ?_⟩
            by_contra hs
            exact hn (this.2 ⟨hb, hs⟩)
        · rintro (hb | ⟨j, hj, k, hk, h5, h6⟩) hn
          · exact (this.1 hn).1 hb
          · obtain rfl : j = 0 := by omega
            simp only [List.getElem?_cons_zero, Option.some.injEq] at hk
            subst hk
            exact (this.1 hn).2 h6
      | succ i =>
        rw [List.getElem?_cons_succ] at hi hq
        rw [c3 i q m q' hi hq c hc, a2]
        constructor
        · rintro ((hb | ⟨h5, h6⟩) | ⟨j, hj, k, hk, h5, h6⟩)
          · exact .inl hb
          · exact .inr ⟨0, Nat.zero_le _, _, rfl, h5, h6⟩
          · exact .inr ⟨j + 1, by omega, k, by rw [List.getElem?_cons_succ]; exact hk, h5, h6⟩
        · rintro (hb | ⟨j, hj, k, hk, h5, h6⟩)
          · exact .inl (.inl hb)
          · cases j with
            | zero =>
              simp only [List.getElem?_cons_zero, Option.some.injEq] at hk
              subst hk
              exact .inl (.inr ⟨h5, h6⟩)
            | succ j =>
              rw [List.getElem?_cons_succ] at hk
              exact .inr ⟨j, by omega, k, hk, h5, h6⟩

end

/-! ### Examples -/

/-- Two configurations; 0 takes 10, 1 takes 100. -/
def exEvidence : EvidenceMap Nat := [(0, [⟨0, 0, 12⟩, ⟨5, 1, 10⟩]), (1, [⟨1, 0, 15⟩, ⟨6, 1, 100⟩])]

theorem exEvidence_good : GoodEvidence exEvidence := by
  refine ⟨by decide, ?_, ?_, ?_, ⟨(0, [⟨0, 0, 12⟩, ⟨5, 1, 10⟩]), by decide, by decide⟩⟩ <;> decide

/-- A case that meets the hypotheses: the slow configuration is removed, the best and the unmeasured one stay. -/
example : slowConfigFilter (3/2) [] [0, 1, 2] exEvidence = .ok ([1], [0, 2]) := by decide +kernel

/-- C39 fails if a configuration is measured several times in a phase (as happens when the MPI strategy puts the best known configuration back into
the queue): configuration 1 is the fastest, `getLatestOptimalConfiguration` says so, and yet it is blacklisted because of its last measurement. -/
theorem C39_violated_repeated_measurement :
    ∃ (m : EvidenceMap Nat) (queue : List Nat), getOptimalConfiguration m (latestPhase m) = .ok 1 ∧ 1 ∈ queue ∧
      (∀ c v, Measured m (latestPhase m) c v → 10 ≤ v) ∧ Measured m (latestPhase m) 1 10 ∧
      ∃ b' queue', slowConfigFilter (3/2) [] queue m = .ok (b', queue') ∧ 1 ∉ queue' := by
  refine ⟨[(0, [⟨0, 0, 50⟩]), (1, [⟨1, 0, 10⟩, ⟨2, 0, 100⟩])], [0, 1], by decide +kernel, by decide, ?_, ?_, [0, 1], [], by decide +kernel, by decide⟩
  · rintro c v ⟨p, hp, -, e, he, -, rfl⟩
    simp only [List.mem_cons, List.not_mem_nil, or_false] at hp
    rcases hp with rfl | rfl
    · simp only [List.mem_cons, List.not_mem_nil, or_false] at he
      subst he; decide
    · simp only [List.mem_cons, List.not_mem_nil, or_false] at he
      rcases he with rfl | rfl <;> decide
  · exact ⟨(1, [⟨1, 0, 10⟩, ⟨2, 0, 100⟩]), by decide, rfl, ⟨1, 0, 10⟩, by decide, by decide +kernel, rfl⟩

end Verif
