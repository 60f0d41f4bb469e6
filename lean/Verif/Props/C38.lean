import Verif.Lemmas.AutoTuner
/-!
# C38 — Rejecting configurations

"Rejecting a configuration either yields another configuration of the search space or a reported error; it never uses an empty
queue." **Violated**: `C38_violated_empty_queue`. What holds: `C38_reject_partial` describes exactly when it happens.
"A configuration rejected indefinitely is never proposed again": `C38_never_proposed_again`, for full search and
configurations without evidence, for every further sequence of tuner operations.
-/
namespace Verif

variable {σ C : Type} [DecidableEq C]

/-- **C38 (first part).** The exact result of a rejection with full search: an error if the search space has only one element;
undefined behaviour if nothing else is queued; otherwise another queued configuration. -/
theorem C38_reject_partial {cfg : TunerCfg σ C} (hfull : cfg.strategies = []) (t : Tuner σ C) (rejected : C) (indefinitely : Bool) :
    (t.searchSpace.length = 1 → t.rejectConfig cfg rejected indefinitely = .throws) ∧
    (t.searchSpace.length ≠ 1 → (∀ c ∈ t.queue, c = rejected) → t.rejectConfig cfg rejected indefinitely = .ub) ∧
    (t.searchSpace.length ≠ 1 → (∃ c ∈ t.queue, c ≠ rejected) →
      ∃ t' c, t.rejectConfig cfg rejected indefinitely = .ok (t', c, true) ∧ c ∈ t.queue ∧ c ≠ rejected ∧
        t'.currentConfig = .ok c ∧ rejected ∉ t'.queue ∧ (indefinitely = true → rejected ∉ t'.searchSpace)) := by
  refine ⟨?_, ?_, ?_⟩
  · intro h
    simp [Tuner.rejectConfig, Tuner.trivial, h]
  · intro h hall
    have hq : t.queue.filter (fun c => c ≠ rejected) = [] := by
      rw [List.filter_eq_nil_iff]
      intro a ha
      simpa using hall a ha
    simp only [Tuner.rejectConfig, Tuner.trivial, h, hfull, runOptimizeRaw, hq]
    simp [Tuner.currentConfig, Outcome.bind]
  · intro h ⟨c, hc, hne⟩
    have hq : t.queue.filter (fun c => c ≠ rejected) ≠ [] := by
      intro h0
      have : c ∈ t.queue.filter (fun c => c ≠ rejected) := List.mem_filter.2 ⟨hc, by simpa using hne⟩
      rw [h0] at this
      simp at this
    obtain ⟨q, b, hb⟩ : ∃ q b, t.queue.filter (fun c => c ≠ rejected) = q ++ [b] := by
      rcases List.eq_nil_or_concat' (t.queue.filter (fun c => c ≠ rejected)) with h0 | ⟨q, b, h0⟩
      · exact absurd h0 hq
      · exact ⟨q, b, h0⟩
    have hbm : b ∈ t.queue.filter (fun c => c ≠ rejected) := by rw [hb]; simp
    obtain ⟨b1, b2⟩ := List.mem_filter.1 hbm
    refine ⟨{ t with queue := t.queue.filter (fun c => c ≠ rejected),
                     searchSpace := if indefinitely then t.searchSpace.filter (fun c => c ≠ rejected) else t.searchSpace },
      b, ?_, b1, by simpa using b2, ?_, ?_, ?_⟩
    · simp only [Tuner.rejectConfig, Tuner.trivial, h, hfull, runOptimizeRaw, hb, List.foldl_nil]
      simp [Tuner.currentConfig, Outcome.bind]
    · rw [currentConfig_ok]
      simp only [hb]
      simp
    · simp
    · intro hi
      simp [hi]

/-- Operations on the tuner by `LogicHandler` and `AutoPas`. -/
inductive TunerOp (C : Type)
  | next
  | reject (c : C) (indefinitely : Bool)
  | measure (time : Int) (rebuilt : Bool)
  | bump (needToWait : Bool)
  | forceRetune

/-- One operation; the proposed configuration, if the operation proposes one. -/
def TunerOp.run (cfg : TunerCfg σ C) (t : Tuner σ C) : TunerOp C → Outcome (Tuner σ C × Option C)
  | .next => (t.getNextConfig cfg).bind fun r => .ok (r.1, some r.2.1)
  | .reject c i => (t.rejectConfig cfg c i).bind fun r => .ok (r.1, some r.2.1)
  | .measure x b => (t.addMeasurement cfg x b).bind fun t' => .ok (t', none)
  | .bump w => .ok (t.bump cfg w, none)
  | .forceRetune => .ok (t.forceRetuning cfg, none)

/-- A sequence of operations and everything it proposes. -/
def runOps (cfg : TunerCfg σ C) : Tuner σ C → List (TunerOp C) → Outcome (Tuner σ C × List C)
  | t, [] => .ok (t, [])
  | t, o :: os => (o.run cfg t).bind fun r => (runOps cfg r.1 os).bind fun q => .ok (q.1, r.2.toList ++ q.2)

/-- `c` is gone. -/
private structure Gone (c : C) (t : Tuner σ C) : Prop where
  queue : c ∉ t.queue
  space : c ∉ t.searchSpace
  ev : c ∉ t.evidence.map Prod.fst

private theorem gone_current {c d : C} {t : Tuner σ C} (h : Gone c t) (hd : t.currentConfig = .ok d) : d ≠ c := by
  rintro rfl
  exact h.queue (List.mem_of_getLast? (currentConfig_ok.1 hd))

private theorem gone_tune {cfg : TunerCfg σ C} (hfull : cfg.strategies = []) {c : C} {t : Tuner σ C} (h : Gone c t)
    {r : Tuner σ C × Bool} (hr : t.tuneConfiguration cfg = .ok r) : Gone c r.1 := by
  unfold Tuner.tuneConfiguration at hr
  split at hr
  · cases hr
  · -- the queue before a possible end of the phase
    set u : Tuner σ C := (if (t.iteration % cfg.tuningInterval = 0 ∧ !t.isTuning) ∨ t.forceRetune then
        { t with
          samplesNot := [], samplesReb := [], isTuning := true, forceRetune := false, iterationBaseline := 0
          queue := t.searchSpace.reverse }
      else { t with samplesNot := [], samplesReb := [], isTuning := true, queue := t.queue.dropLast }) with hu
    have hgu : Gone c u := by
      rw [hu]
      split
      · exact ⟨by simpa using h.space, h.space, h.ev⟩
      · exact ⟨fun hx => h.queue (List.dropLast_subset _ hx), h.space, h.ev⟩
    simp only [hfull, runReset, runOptimize] at hr
    rw [← hu] at hr
    split at hr
    · obtain ⟨k, hk, hr⟩ := Outcome.bind_ok.1 hr
      cases hr
      refine ⟨?_, hgu.space, hgu.ev⟩
      simp only [List.mem_singleton]
      rintro rfl
      -- the optimum has evidence
      unfold getOptimalConfiguration at hk
      split at hk
      · cases hk
      · have key : ∀ (m : EvidenceMap C) (o : Option C) (b : Int), (optimalLoop u.tuningPhase m o b).1 = o ∨
            ∃ k es e, (k, es) ∈ m ∧ e ∈ es ∧ (optimalLoop u.tuningPhase m o b).1 = some k := by
          intro m
          induction m with
          | nil => intro o b; exact .inl rfl
          | cons a m ih =>
            obtain ⟨k', es⟩ := a
            intro o b
            unfold optimalLoop
            split
            · rename_i e he
              obtain ⟨b1, -, -⟩ := betterEvidence_some he
              rcases ih (some k') e.value with i | ⟨k2, es2, e2, i1, i2, i3⟩
              · exact .inr ⟨k', es, e, by simp, b1, i⟩
              · exact .inr ⟨k2, es2, e2, by simp [i1], i2, i3⟩
            · rcases ih o b with i | ⟨k2, es2, e2, i1, i2, i3⟩
              · exact .inl i
              · exact .inr ⟨k2, es2, e2, by simp [i1], i2, i3⟩
        split at hk
        · rename_i x hx
          cases hk
          rcases key u.evidence none longMax with h1 | ⟨k2, es, e, h1, -, h3⟩
          · rw [h1] at hx; cases hx
          · rw [hx] at h3
            cases h3
            exact hgu.ev (List.mem_map.2 ⟨_, h1, rfl⟩)
        · cases hk
    · cases hr
      exact hgu

private theorem gone_step {cfg : TunerCfg σ C} (hfull : cfg.strategies = []) {c : C} {t : Tuner σ C} (h : Gone c t)
    {o : TunerOp C} {r : Tuner σ C × Option C} (hr : o.run cfg t = .ok r) : Gone c r.1 ∧ r.2 ≠ some c := by
  cases o with
  | next =>
    simp only [TunerOp.run] at hr
    obtain ⟨x, hx, hr⟩ := Outcome.bind_ok.1 hr
    cases hr
    unfold Tuner.getNextConfig at hx
    split at hx
    · obtain ⟨d, hd, hx⟩ := Outcome.bind_ok.1 hx
      cases hx
      exact ⟨h, by simpa using gone_current h hd⟩
    · split at hx
      · obtain ⟨d, hd, hx⟩ := Outcome.bind_ok.1 hx
        cases hx
        exact ⟨h, by simpa using gone_current h hd⟩
      · obtain ⟨y, hy, hx⟩ := Outcome.bind_ok.1 hx
        obtain ⟨d, hd, hx⟩ := Outcome.bind_ok.1 hx
        cases hx
        have := gone_tune hfull h hy
        exact ⟨this, by simpa using gone_current this hd⟩
  | reject c' i =>
    simp only [TunerOp.run] at hr
    obtain ⟨x, hx, hr⟩ := Outcome.bind_ok.1 hr
    cases hr
    unfold Tuner.rejectConfig at hx
    split at hx
    · cases hx
    · simp only [hfull, List.foldl_nil, runOptimizeRaw] at hx
      obtain ⟨d, hd, hx⟩ := Outcome.bind_ok.1 hx
      cases hx
      have hg : Gone c ({ t with
          queue := t.queue.filter (fun c => c ≠ c')
          searchSpace := if i then t.searchSpace.filter (fun c => c ≠ c') else t.searchSpace } : Tuner σ C) := by
        refine ⟨fun hm => h.queue (List.mem_of_mem_filter hm), ?_, h.ev⟩
        cases i
        · exact h.space
        · exact fun hm => h.space (List.mem_of_mem_filter hm)
      exact ⟨hg, by simpa using gone_current hg hd⟩
  | measure x b =>
    simp only [TunerOp.run] at hr
    obtain ⟨t', ht', hr⟩ := Outcome.bind_ok.1 hr
    cases hr
    refine ⟨?_, by simp⟩
    unfold Tuner.addMeasurement at ht'
    obtain ⟨d, hd, ht'⟩ := Outcome.bind_ok.1 ht'
    have hdc := gone_current h hd
    split at ht'
    · cases ht'
    · set u : Tuner σ C := (if b then { t with samplesReb := t.samplesReb ++ [x] }
          else { t with samplesNot := t.samplesNot ++ [x] }) with hu
      have hgu : Gone c u := by
        rw [hu]
        split
        · exact ⟨h.queue, h.space, h.ev⟩
        · exact ⟨h.queue, h.space, h.ev⟩
      simp only at ht'
      split at ht'
      · cases ht'
        refine ⟨hgu.queue, hgu.space, ?_⟩
        simp only
        rw [setLast_keys, addEvidence_keys]
        split
        · exact hgu.ev
        · rw [List.mem_append, List.mem_singleton]
          rintro (hm | hm)
          · exact hgu.ev hm
          · exact hdc hm.symm
      · simp only [Outcome.ok.injEq] at ht'
        rw [← ht']
        exact hgu
  | bump w =>
    simp only [TunerOp.run] at hr
    cases hr
    exact ⟨⟨h.queue, h.space, h.ev⟩, by simp⟩
  | forceRetune =>
    simp only [TunerOp.run] at hr
    cases hr
    exact ⟨⟨h.queue, h.space, h.ev⟩, by simp⟩

/-- **C38 (second part).** With full search, a configuration that is rejected indefinitely before it has been measured is never
proposed again, whatever operations follow. -/
theorem C38_never_proposed_again {cfg : TunerCfg σ C} (hfull : cfg.strategies = []) {t t' : Tuner σ C} {rejected c : C} {b : Bool}
    (hrej : t.rejectConfig cfg rejected true = .ok (t', c, b)) (hev : ∀ x ∈ t.evidence, x.1 ≠ rejected)
    (ops : List (TunerOp C)) {r : Tuner σ C × List C} (hrun : runOps cfg t' ops = .ok r) : rejected ∉ r.2 := by
  have h0 : Gone rejected t' := by
    unfold Tuner.rejectConfig at hrej
    split at hrej
    · cases hrej
    · simp only [hfull, List.foldl_nil, runOptimizeRaw, if_true] at hrej
      obtain ⟨d, hd, hx⟩ := Outcome.bind_ok.1 hrej
      cases hx
      refine ⟨by simp, by simp, ?_⟩
      intro hm
      obtain ⟨x, hx, rfl⟩ := List.mem_map.1 hm
      exact hev x hx rfl
  clear hrej hev
  induction ops generalizing t' r with
  | nil =>
    simp only [runOps, Outcome.ok.injEq] at hrun
    subst hrun
    simp
  | cons o os ih =>
    unfold runOps at hrun
    obtain ⟨x, hx, hrun⟩ := Outcome.bind_ok.1 hrun
    obtain ⟨y, hy, hrun⟩ := Outcome.bind_ok.1 hrun
    cases hrun
    obtain ⟨g1, g2⟩ := gone_step hfull h0 hx
    have := ih hy g1
    rw [List.mem_append]
    rintro (hm | hm)
    · rw [Option.mem_toList] at hm
      exact g2 hm
    · exact this hm

section Examples

private def exCfg38 : TunerCfg Unit Nat :=
  { tuningInterval := 8, maxSamples := 2, rebuildFrequency := 3, selector := .fastestAbs, strategies := [], smooth := none }

private def exT : Tuner Unit Nat :=
  { iteration := 0, tuningPhase := 0, iterationBaseline := 0, isTuning := true, forceRetune := false, samplesNot := [],
    samplesReb := [], evidence := [], searchSpace := [3, 5, 8], queue := [8, 5, 3], strat := () }

/-- A rejection that works, and operations afterwards that propose several configurations. -/
example : (match exT.rejectConfig exCfg38 3 true with
      | .ok (t', c, _) => (match runOps exCfg38 t' [.next, .measure 4 true, .measure 5 false, .next, .reject 8 false, .next] with
        | .ok (_, l) => some (c, l)
        | .ub => some (c, [])
        | _ => none)
      | _ => none) = some (5, []) := by decide +kernel

example : (match exT.rejectConfig exCfg38 3 true with
      | .ok (t', c, _) => (match runOps exCfg38 t' [.next, .measure 4 true, .measure 5 false, .next, .forceRetune, .next] with
        | .ok (_, l) => some (c, l)
        | _ => none)
      | _ => none) = some (5, [5, 8, 5]) := by decide +kernel

/-- **Violation**: all three configurations are rejected (not indefinitely). The third rejection reads `back()` of an empty
queue: undefined behaviour instead of an error. -/
theorem C38_violated_empty_queue :
    (match runOps exCfg38 exT [.reject 3 false, .reject 5 false, .reject 8 false] with
      | .ub => true
      | _ => false) = true := by decide +kernel

end Examples

end Verif
