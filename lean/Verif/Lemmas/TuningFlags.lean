import Verif.Props.C37
/-! Which iterations of full search are tuning iterations. -/
namespace Verif

variable {σ C : Type} [DecidableEq C]

/-- What `computeInteractions` returns in a sequence of iterations with measured times and rebuild flags: whether it was a tuning iteration,
LogicHandler.h:1569-1674. -/
def tunerFlags (cfg : TunerCfg σ C) (fuel : Nat) (v : C → Verdict) : Tuner σ C → List (Int × Bool) → Outcome (List Bool)
  | _, [] => .ok []
  | t, x :: xs =>
    (t.select cfg fuel v).bind fun r => (r.1.measure cfg true r.2.1 x.1 x.2).bind fun t' =>
      (tunerFlags cfg fuel v (t'.bump cfg false) xs).bind fun l => .ok (r.2.1 :: l)

/-- Between two iterations: there are enough samples unless the tuner is tuning. -/
structure Quiet (cfg : TunerCfg σ C) (t : Tuner σ C) : Prop where
  noForce : t.forceRetune = false
  enough : t.isTuning = false → cfg.maxSamples ≤ t.numSamples
  nontrivial : t.searchSpace.length ≠ 1

omit [DecidableEq C] in
theorem Quiet.bump {cfg : TunerCfg σ C} {t : Tuner σ C} (h : Quiet cfg t) : Quiet cfg (t.bump cfg false) := ⟨h.noForce, h.enough, h.nontrivial⟩

theorem select_applicable {cfg : TunerCfg σ C} {fuel : Nat} {v : C → Verdict} (hv : ∀ c, v c = .applicable) {t : Tuner σ C} {r : Tuner σ C × Bool × List C}
    (h : t.select cfg fuel v = .ok r) : ∃ c, t.getNextConfig cfg = .ok (r.1, c, r.2.1) := by
  unfold Tuner.select at h
  obtain ⟨q, h1, h2⟩ := Outcome.bind_ok.1 h
  cases fuel with
  | zero => cases h2
  | succ f =>
    simp only [selectLoop, hv, Outcome.ok.injEq] at h2
    subst h2
    exact ⟨q.2.1, h1⟩

/-- The flag of an iteration is the state of the tuner behind it. -/
theorem iteration_flag {cfg : TunerCfg σ C} (hst : cfg.strategies = []) {fuel : Nat} {v : C → Verdict} (hv : ∀ c, v c = .applicable) {t t' : Tuner σ C} {x : Int × Bool}
    (hq : Quiet cfg t) (h : tunerIteration cfg fuel v t x = .ok t') :
    ∃ r, t.select cfg fuel v = .ok r ∧ r.1.measure cfg true r.2.1 x.1 x.2 = .ok t' ∧ r.2.1 = t'.isTuning ∧ Quiet cfg t' ∧ t'.iteration = t.iteration := by
  obtain ⟨r, h1, h2⟩ := Outcome.bind_ok.1 h
  refine ⟨r, h1, h2, ?_⟩
  obtain ⟨c, hn⟩ := select_applicable hv h1
  obtain ⟨r1, b, cs⟩ := r
  simp only at hn h2
  have htriv : t.trivial = false := by simp [Tuner.trivial, hq.nontrivial]
  have key : b = r1.isTuning ∧ Quiet cfg r1 ∧ r1.iteration = t.iteration := by
    unfold Tuner.getNextConfig at hn
    split at hn
    · rename_i hin
      obtain ⟨c', -, hn⟩ := Outcome.bind_ok.1 hn
      simp only [Outcome.ok.injEq, Prod.mk.injEq] at hn
      obtain ⟨rfl, -, rfl⟩ := hn
      simp only [Tuner.inTuningPhase, htriv, Bool.not_eq_eq_eq_not, Bool.not_true, Bool.not_false, Bool.and_true, Bool.or_eq_false_iff] at hin
      exact ⟨hin.1.2.symm, hq, rfl⟩
    · split at hn
      · rename_i hlt
        obtain ⟨c', -, hn⟩ := Outcome.bind_ok.1 hn
        simp only [Outcome.ok.injEq, Prod.mk.injEq] at hn
        obtain ⟨rfl, -, rfl⟩ := hn
        refine ⟨?_, hq, rfl⟩
        cases hi : t.isTuning with
        | true => rfl
        | false => have := hq.enough hi; omega
      · obtain ⟨u, hu, hn⟩ := Outcome.bind_ok.1 hn
        obtain ⟨c', -, hn⟩ := Outcome.bind_ok.1 hn
        simp only [Outcome.ok.injEq, Prod.mk.injEq] at hn
        obtain ⟨rfl, -, rfl⟩ := hn
        unfold Tuner.tuneConfiguration at hu
        split at hu
        · cases hu
        · simp only [hst, runReset, runOptimize, hq.noForce] at hu
          split at hu <;> split at hu
          · obtain ⟨c'', -, hu⟩ := Outcome.bind_ok.1 hu
            simp only [Outcome.ok.injEq] at hu
            subst hu
            exact ⟨rfl, ⟨rfl, by simp [Tuner.numSamples, resizeVec], hq.nontrivial⟩, rfl⟩
          · simp only [Outcome.ok.injEq] at hu
            subst hu
            exact ⟨rfl, ⟨rfl, by simp, hq.nontrivial⟩, rfl⟩
          · obtain ⟨c'', -, hu⟩ := Outcome.bind_ok.1 hu
            simp only [Outcome.ok.injEq] at hu
            subst hu
            exact ⟨rfl, ⟨rfl, by simp [Tuner.numSamples, resizeVec], hq.nontrivial⟩, rfl⟩
          · simp only [Outcome.ok.injEq] at hu
            subst hu
            exact ⟨rfl, ⟨rfl, by simp, hq.nontrivial⟩, rfl⟩
  obtain ⟨k1, k2, k3⟩ := key
  unfold Tuner.measure at h2
  split at h2
  · rename_i hb
    unfold Tuner.addMeasurement at h2
    obtain ⟨cc, -, h2⟩ := Outcome.bind_ok.1 h2
    have hb' : b = true := by simpa using hb
    have hi : r1.isTuning = true := by rw [← k1]; exact hb'
    split at h2
    · cases h2
    · cases hx : x.2 <;> simp only [hx, Bool.false_eq_true, if_false, if_true] at h2 <;> split at h2 <;>
        simp only [Outcome.ok.injEq] at h2 <;> subst h2 <;>
        exact ⟨k1, ⟨k2.noForce, by simp [hi], k2.nontrivial⟩, k3⟩
  · simp only [Outcome.ok.injEq] at h2
    subst h2
    exact ⟨k1, k2, k3⟩

/-- A tuner that is done stays done until the end of the interval. -/
theorem flags_done {cfg : TunerCfg σ C} (hst : cfg.strategies = []) {fuel : Nat} {v : C → Verdict} (hv : ∀ c, v c = .applicable) :
    ∀ {xs : List (Int × Bool)} {t t' : Tuner σ C} {l : List C} {j : Nat}, tunerRun cfg fuel v t xs = .ok (t', l) → Quiet cfg t → t.isTuning = false →
      t.iteration % cfg.tuningInterval = j → 0 < j → j + xs.length ≤ cfg.tuningInterval →
      tunerFlags cfg fuel v t xs = .ok (List.replicate xs.length false) ∧ t'.isTuning = false ∧ Quiet cfg t' := by
  intro xs
  induction xs with
  | nil =>
    intro t t' l j h hq hi _ _ _
    simp only [tunerRun, Outcome.ok.injEq, Prod.mk.injEq] at h
    obtain ⟨rfl, -⟩ := h
    exact ⟨rfl, hi, hq⟩
  | cons x xs ih =>
    intro t t' l j h hq hi hj h0 hl
    simp only [tunerRun] at h
    obtain ⟨u, hu, h⟩ := Outcome.bind_ok.1 h
    obtain ⟨c, -, h⟩ := Outcome.bind_ok.1 h
    obtain ⟨q, hr, h⟩ := Outcome.bind_ok.1 h
    simp only [Outcome.ok.injEq, Prod.mk.injEq] at h
    obtain ⟨rfl, -⟩ := h
    obtain ⟨r, s1, s2, s3, s4, s5⟩ := iteration_flag hst hv hq hu
    have hui : u.isTuning = false := by
      obtain ⟨c', hn⟩ := select_applicable hv s1
      have hin : t.inTuningPhase cfg = false := by
        simp [Tuner.inTuningPhase, hi, hq.noForce, hj, Nat.pos_iff_ne_zero.1 h0]
      unfold Tuner.getNextConfig at hn
      simp only [hin, Bool.not_false, if_true] at hn
      obtain ⟨c'', -, hn⟩ := Outcome.bind_ok.1 hn
      simp only [Outcome.ok.injEq, Prod.mk.injEq] at hn
      rw [← s3, ← hn.2.2]
    have key : tunerFlags cfg fuel v (u.bump cfg false) xs = .ok (List.replicate xs.length false) ∧ q.1.isTuning = false ∧ Quiet cfg q.1 := by
      cases xs with
      | nil =>
        simp only [tunerRun, Outcome.ok.injEq] at hr
        subst hr
        exact ⟨rfl, hui, s4.bump⟩
      | cons y ys =>
        simp only [List.length_cons] at hl
        refine ih (j := j + 1) hr s4.bump hui ?_ (by omega) (by simp only [List.length_cons]; omega)
        show (u.iteration + 1) % cfg.tuningInterval = j + 1
        rw [s5, Nat.add_mod, hj, Nat.mod_eq_of_lt (show 1 < cfg.tuningInterval by omega), Nat.mod_eq_of_lt (by omega)]
    refine ⟨?_, key.2⟩
    simp only [tunerFlags, s1, Outcome.bind, s2, key.1]
    rw [s3.trans hui]
    rfl

/-- If the tuner is tuning after some iterations of an interval, it was in all of them. -/
theorem flags_tuning {cfg : TunerCfg σ C} (hst : cfg.strategies = []) {fuel : Nat} {v : C → Verdict} (hv : ∀ c, v c = .applicable) :
    ∀ {xs : List (Int × Bool)} {t t' : Tuner σ C} {l : List C} {j : Nat}, tunerRun cfg fuel v t xs = .ok (t', l) → Quiet cfg t → t'.isTuning = true →
      t.iteration % cfg.tuningInterval = j → j + xs.length ≤ cfg.tuningInterval →
      tunerFlags cfg fuel v t xs = .ok (List.replicate xs.length true) ∧ Quiet cfg t' := by
  intro xs
  induction xs with
  | nil =>
    intro t t' l j h hq hi _ _
    simp only [tunerRun, Outcome.ok.injEq, Prod.mk.injEq] at h
    obtain ⟨rfl, -⟩ := h
    exact ⟨rfl, hq⟩
  | cons x xs ih =>
    intro t t' l j h hq hi hj hl
    simp only [tunerRun] at h
    obtain ⟨u, hu, h⟩ := Outcome.bind_ok.1 h
    obtain ⟨c, -, h⟩ := Outcome.bind_ok.1 h
    obtain ⟨q, hr, h⟩ := Outcome.bind_ok.1 h
    simp only [Outcome.ok.injEq, Prod.mk.injEq] at h
    obtain ⟨rfl, -⟩ := h
    obtain ⟨r, s1, s2, s3, s4, s5⟩ := iteration_flag hst hv hq hu
    simp only [List.length_cons] at hl
    have hmod : xs ≠ [] → (u.bump cfg false).iteration % cfg.tuningInterval = j + 1 := by
      intro hne
      have : 0 < xs.length := List.length_pos_iff.2 hne
      show (u.iteration + 1) % cfg.tuningInterval = j + 1
      rw [s5, Nat.add_mod, hj, Nat.mod_eq_of_lt (show 1 < cfg.tuningInterval by omega), Nat.mod_eq_of_lt (by omega)]
    have hui : u.isTuning = true := by
      cases hui : u.isTuning with
      | true => rfl
      | false =>
        exfalso
        cases xs with
        | nil =>
          simp only [tunerRun, Outcome.ok.injEq] at hr
          subst hr
          have : (u.bump cfg false).isTuning = u.isTuning := rfl
          rw [this, hui] at hi
          cases hi
        | cons y ys =>
          have := (flags_done hst hv hr s4.bump hui (hmod (by simp)) (by omega) (by omega)).2.1
          rw [this] at hi
          cases hi
    have key : tunerFlags cfg fuel v (u.bump cfg false) xs = .ok (List.replicate xs.length true) ∧ Quiet cfg q.1 := by
      cases xs with
      | nil =>
        simp only [tunerRun, Outcome.ok.injEq] at hr
        subst hr
        exact ⟨rfl, s4.bump⟩
      | cons y ys => exact ih hr s4.bump hi (hmod (by simp)) (by omega)
    refine ⟨?_, key.2⟩
    simp only [tunerFlags, s1, Outcome.bind, s2, key.1]
    rw [s3.trans hui]
    rfl

theorem tunerRun_split {cfg : TunerCfg σ C} {fuel : Nat} {v : C → Verdict} {xs ys : List (Int × Bool)} :
    ∀ {t t2 : Tuner σ C} {l : List C}, tunerRun cfg fuel v t (xs ++ ys) = .ok (t2, l) →
      ∃ t1 l1 l2, tunerRun cfg fuel v t xs = .ok (t1, l1) ∧ tunerRun cfg fuel v t1 ys = .ok (t2, l2) := by
  induction xs with
  | nil => intro t t2 l h; exact ⟨t, [], l, rfl, h⟩
  | cons x xs ih =>
    intro t t2 l h
    simp only [List.cons_append, tunerRun] at h
    obtain ⟨u, hu, h⟩ := Outcome.bind_ok.1 h
    obtain ⟨c, hc, h⟩ := Outcome.bind_ok.1 h
    obtain ⟨q, hr, h⟩ := Outcome.bind_ok.1 h
    simp only [Outcome.ok.injEq, Prod.mk.injEq] at h
    obtain ⟨rfl, -⟩ := h
    obtain ⟨t1, l1, l2, h1, h2⟩ := ih hr
    exact ⟨t1, c :: l1, l2, by simp only [tunerRun, hu, Outcome.bind, hc, h1], h2⟩

theorem tunerFlags_append {cfg : TunerCfg σ C} {fuel : Nat} {v : C → Verdict} {xs ys : List (Int × Bool)} :
    ∀ {t t1 : Tuner σ C} {l : List C} {f g : List Bool}, tunerRun cfg fuel v t xs = .ok (t1, l) → tunerFlags cfg fuel v t xs = .ok f →
      tunerFlags cfg fuel v t1 ys = .ok g → tunerFlags cfg fuel v t (xs ++ ys) = .ok (f ++ g) := by
  induction xs with
  | nil =>
    intro t t1 l f g h hf hg
    simp only [tunerRun, Outcome.ok.injEq, Prod.mk.injEq] at h
    simp only [tunerFlags, Outcome.ok.injEq] at hf
    obtain ⟨rfl, -⟩ := h
    subst hf
    exact hg
  | cons x xs ih =>
    intro t t1 l f g h hf hg
    simp only [tunerRun] at h
    obtain ⟨u, hu, h⟩ := Outcome.bind_ok.1 h
    obtain ⟨c, -, h⟩ := Outcome.bind_ok.1 h
    obtain ⟨q, hr, h⟩ := Outcome.bind_ok.1 h
    simp only [Outcome.ok.injEq, Prod.mk.injEq] at h
    obtain ⟨rfl, -⟩ := h
    simp only [tunerFlags] at hf
    obtain ⟨r, s1, hf⟩ := Outcome.bind_ok.1 hf
    obtain ⟨u', s2, hf⟩ := Outcome.bind_ok.1 hf
    obtain ⟨f', s3, hf⟩ := Outcome.bind_ok.1 hf
    simp only [Outcome.ok.injEq] at hf
    subst hf
    have : u' = u := by
      simp only [tunerIteration, s1, Outcome.bind, s2, Outcome.ok.injEq] at hu
      exact hu
    subst this
    simp only [List.cons_append, tunerFlags, s1, Outcome.bind, s2, ih hr s3 hg]

/-- One interval: the samples are tuning iterations, all others are not. -/
theorem interval_flags {cfg : TunerCfg σ C} (hst : cfg.strategies = []) (hmax : 0 < cfg.maxSamples) (hsm : cfg.smooth = none)
    {v : C → Verdict} (hv : ∀ c, v c = .applicable) {apps : List C} {p fuel : Nat} {t : Tuner σ C} (h : PhaseStart cfg v apps p 0 t) (hq : Quiet cfg t)
    (hf : t.searchSpace.length < fuel) {xs : List (Int × Bool)} (hlen : xs.length = cfg.tuningInterval)
    (hfit : apps.length * cfg.maxSamples < cfg.tuningInterval)
    (hval : ∀ i < apps.length, chunkEstimate cfg ((xs.drop (i * cfg.maxSamples)).take cfg.maxSamples) < longMax) :
    ∃ t' l, tunerRun cfg fuel v t xs = .ok (t', l) ∧ PhaseStart cfg v apps (p + 1) 0 t' ∧ t'.searchSpace.length ≤ t.searchSpace.length ∧ Quiet cfg t' ∧
      tunerFlags cfg fuel v t xs = .ok (List.replicate (apps.length * cfg.maxSamples) true ++
        List.replicate (cfg.tuningInterval - apps.length * cfg.maxSamples) false) := by
  obtain ⟨t', i, c, hi, hc, -, hrun, hps, hsl⟩ := interval_run hst hmax hsm h hf hlen hfit hval
  set n := apps.length * cfg.maxSamples with hn
  have hnpos : 0 < n := Nat.mul_pos (by omega) hmax
  have hxl : (xs.take n).length = n := by rw [List.length_take]; omega
  obtain ⟨t1, c1, A, ws, r1, r2, r3, r4, -⟩ := sampling_phase hst hmax h hf (xs := xs.take n) (by omega) (by omega)
  obtain ⟨f1, hq1⟩ := flags_tuning hst hv r1 hq r2.tuning h.iter (by omega)
  have hrun' := hrun
  rw [← List.take_append_drop n xs] at hrun'
  obtain ⟨t1', l1, l2, q1, q2⟩ := tunerRun_split hrun'
  rw [r1] at q1
  simp only [Outcome.ok.injEq, Prod.mk.injEq] at q1
  obtain ⟨rfl, -⟩ := q1
  have hr2 : t1.iteration % cfg.tuningInterval = n := by have := r2.iter; rw [hxl, Nat.zero_add] at this; exact this
  have hy : xs.drop n = xs[n] :: xs.drop (n + 1) := List.drop_eq_getElem_cons (by omega)
  have f2 : tunerFlags cfg fuel v t1 (xs.drop n) = .ok (List.replicate (cfg.tuningInterval - n) false) ∧ t'.isTuning = false ∧ Quiet cfg t' := by
    rw [hy] at q2 ⊢
    simp only [tunerRun] at q2
    obtain ⟨u, hu, q2⟩ := Outcome.bind_ok.1 q2
    obtain ⟨cc, -, q2⟩ := Outcome.bind_ok.1 q2
    obtain ⟨q, hr, q2⟩ := Outcome.bind_ok.1 q2
    simp only [Outcome.ok.injEq, Prod.mk.injEq] at q2
    obtain ⟨rfl, -⟩ := q2
    obtain ⟨r, s1, s2, s3, s4, s5⟩ := iteration_flag hst hv hq1 hu
    have hui : u.isTuning = false := by
      obtain ⟨c', hnx⟩ := select_applicable hv s1
      have htriv : t1.trivial = false := by simp [Tuner.trivial, hq1.nontrivial]
      have hin : t1.inTuningPhase cfg = true := by simp [Tuner.inTuningPhase, r2.tuning, htriv]
      have hns : t1.numSamples = cfg.maxSamples := by rw [numSamples_of r2.reb r2.notReb, r3]
      unfold Tuner.getNextConfig at hnx
      simp only [hin, Bool.not_true, Bool.false_eq_true, if_false, hns, Nat.lt_irrefl] at hnx
      obtain ⟨w, hw, hnx⟩ := Outcome.bind_ok.1 hnx
      obtain ⟨c'', -, hnx⟩ := Outcome.bind_ok.1 hnx
      simp only [Outcome.ok.injEq, Prod.mk.injEq] at hnx
      unfold Tuner.tuneConfiguration at hw
      simp only [r2.queue, List.reverse_cons, List.reverse_nil, List.nil_append, List.isEmpty_cons, Bool.false_eq_true, if_false, List.dropLast_singleton,
        r2.tuning, Bool.not_true, and_false, r2.noForce, or_self, hst, runOptimize, List.isEmpty_nil, if_true] at hw
      obtain ⟨cb, -, hw⟩ := Outcome.bind_ok.1 hw
      simp only [Outcome.ok.injEq] at hw
      rw [← s3, ← hnx.2.2, ← hw]
    have hlen2 : (xs.drop (n + 1)).length = cfg.tuningInterval - (n + 1) := by rw [List.length_drop, hlen]
    have key : tunerFlags cfg fuel v (u.bump cfg false) (xs.drop (n + 1)) = .ok (List.replicate (cfg.tuningInterval - (n + 1)) false) ∧ q.1.isTuning = false ∧ Quiet cfg q.1 := by
      by_cases hlast : n + 1 = cfg.tuningInterval
      · have : xs.drop (n + 1) = [] := List.drop_eq_nil_of_le (by omega)
        rw [this] at hr ⊢
        simp only [tunerRun, Outcome.ok.injEq] at hr
        subst hr
        exact ⟨by rw [hlast, Nat.sub_self]; rfl, hui, s4.bump⟩
      · rw [← hlen2]
        refine flags_done (j := n + 1) hst hv hr s4.bump hui ?_ (by omega) (by omega)
        show (u.iteration + 1) % cfg.tuningInterval = n + 1
        rw [s5, Nat.add_mod, hr2, Nat.mod_eq_of_lt (show 1 < cfg.tuningInterval by omega), Nat.mod_eq_of_lt (by omega)]
    refine ⟨?_, key.2⟩
    simp only [tunerFlags, s1, Outcome.bind, s2, key.1]
    rw [s3.trans hui, show cfg.tuningInterval - n = (cfg.tuningInterval - (n + 1)) + 1 by omega, List.replicate_succ]
  refine ⟨t', _, hrun, hps, hsl, f2.2.2, ?_⟩
  have := tunerFlags_append r1 f1 f2.1
  rw [List.take_append_drop, hxl] at this
  exact this

end Verif
