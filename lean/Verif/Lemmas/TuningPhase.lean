import Verif.Lemmas.AutoTuner
/-! A complete tuning phase with full search. -/
namespace Verif

variable {σ C : Type} [DecidableEq C]

/-- All applicable configurations are sampled, in the order of the search space. -/
theorem sampling_phase {cfg : TunerCfg σ C} (hst : cfg.strategies = []) (hmax : 0 < cfg.maxSamples) {v : C → Verdict}
    {apps : List C} {p j fuel : Nat} {t : Tuner σ C} (h : PhaseStart cfg v apps p j t) (hf : t.searchSpace.length < fuel)
    {xs : List (Int × Bool)} (hxs : xs.length = apps.length * cfg.maxSamples) (hj : j + xs.length < cfg.tuningInterval) :
    ∃ t' c' A' ws, tunerRun cfg fuel v t xs = .ok (t', apps.flatMap (List.replicate cfg.maxSamples)) ∧
      Sampling cfg p (j + xs.length) t' c' [] A' ws ∧ A'.length = cfg.maxSamples ∧
      TwoCompatible v t'.searchSpace ∧ Keeps v t.searchSpace t'.searchSpace ∧
      ws.map Prod.fst = apps ∧
      (cfg.smooth = none → ws.map Prod.snd = (List.range ws.length).map
        (fun i => chunkEstimate cfg ((xs.drop (i * cfg.maxSamples)).take cfg.maxSamples))) := by
  obtain ⟨c0, S, hS, hnext⟩ := h.next hst
  have hemp : t.searchSpace.filter (fun c => v c = .applicable) ≠ [] := by
    obtain ⟨x, hx⟩ : ∃ x, t.searchSpace.getLast? = some x := by
      cases h : t.searchSpace.getLast? with
      | none => rw [List.getLast?_eq_none_iff.1 h] at hS; simp at hS
      | some x => exact ⟨x, rfl⟩
    intro h0
    have : x ∈ t.searchSpace.filter (fun c => v c = .applicable) :=
      List.mem_filter.2 ⟨List.mem_of_getLast? hx, by simpa using h.last x hx⟩
    rw [h0] at this
    simp at this
  obtain ⟨R, c', L', hL, hR, hv⟩ := split_first hemp
  have hfil : apps = c' :: L'.filter (fun c => v c = .applicable) := by
    rw [← h.apps_eq, hL, List.filter_append, List.filter_cons_of_pos (by simpa using hv), List.filter_eq_nil_iff.2]
    · rfl
    · intro a ha; simpa using hR a ha
  have hxs' : xs.length = (L'.filter (fun c => v c = .applicable)).length * cfg.maxSamples + cfg.maxSamples := by
    rw [hxs, hfil, List.length_cons]
    exact Nat.succ_mul _ _
  obtain ⟨x, ys, zs, hxyz, hys⟩ : ∃ x ys zs, xs = (x :: ys) ++ zs ∧ (x :: ys).length = cfg.maxSamples := by
    have h1 : (xs.take cfg.maxSamples).length = cfg.maxSamples := by rw [List.length_take]; omega
    cases h : xs.take cfg.maxSamples with
    | nil => rw [h] at h1; simp at h1; omega
    | cons x ys =>
      refine ⟨x, ys, xs.drop cfg.maxSamples, ?_, by rw [← h]; exact h1⟩
      rw [← h, List.take_append_drop]
  have hlen : xs.length = cfg.maxSamples + zs.length := by rw [hxyz, List.length_append, hys]
  simp only [List.length_cons] at hys
  have hLlen : t.searchSpace.length = R.length + 1 + L'.length := by rw [hL]; simp; omega
  obtain ⟨t1, D1, f1, f2, f3, fk, f4, f5⟩ := first_sample hst hmax (v := v) (c' := c') (L' := L') (R := R) (p := p) (j := j)
    (fuel := fuel) (D := []) hnext (by simp [Tuner.currentConfig, begun])
    (by rw [← hL, hS]; rfl) (by rw [← hL]; exact h.nodup) h.compat hR hv (by omega)
    rfl rfl rfl rfl h.phase h.iter (by omega) h.fresh x
  obtain ⟨t2, D2, g1, g2, g3, g4, g5⟩ := more_samples (fuel := fuel) hv (by omega) ys (j + 1) t1 [x] D1 f2 f3
    (by simp; omega) (by omega)
  have hD2 : ∃ w, D2 = [(c', w)] ∧ (cfg.smooth = none → w = chunkEstimate cfg (x :: ys)) := by
    by_cases h : ys = []
    · subst h
      simp only [List.length_nil] at hys
      rw [g4 rfl]
      exact f5 (by omega)
    · obtain ⟨w, w1, w2⟩ := g5 h
      have : ys.length ≠ 0 := by simpa using h
      exact ⟨w, by rw [w1, f4 (by omega)]; rfl, fun hs => by rw [w2 hs]; rfl⟩
  obtain ⟨w, w1, w2⟩ := hD2
  have hnd' : L'.Nodup := by
    have := h.nodup
    rw [hL] at this
    exact (List.nodup_cons.1 (List.nodup_append.1 this).2.1).2
  obtain ⟨t3, c3, A3, ws, k1, k2, k3, k4, kk, k5, k6⟩ := phase_rest hst hmax (fuel := fuel) L'.length L' rfl (j + 1 + ys.length) t2 c'
    ([x] ++ ys) D2 zs g2 (by simp; omega) hnd' (by rw [g3]; exact f3)
    (by
      intro y hy
      apply h.last y
      rw [hL, List.getLast?_append, List.getLast?_cons, hy]
      rfl)
    (by omega) (by omega) (by omega)
  refine ⟨t3, c3, A3, (c', w) :: ws, ?_, ?_, k3, k4, Keeps.trans fk (by rw [← g3]; exact kk), ?_, ?_⟩
  · have a1 := tunerRun_append f1 g1
    have a2 := tunerRun_append a1 k1
    rw [hfil, List.flatMap_cons, hxyz]
    have e1 : [x] ++ ys ++ zs = x :: ys ++ zs := rfl
    have e2 : [c'] ++ List.replicate ys.length c' = List.replicate cfg.maxSamples c' := by
      rw [← hys, List.replicate_succ]; rfl
    rw [e1, e2] at a2
    exact a2
  · have : j + xs.length = j + 1 + ys.length + zs.length := by omega
    rw [this]
    rw [w1] at k2
    exact k2
  · rw [hfil, List.map_cons, k5]
  · intro hs
    have h6 := k6 hs
    have htk : xs.take cfg.maxSamples = x :: ys := by
      rw [hxyz, List.take_append_of_le_length (by simp; omega)]
      rw [List.take_of_length_le (by simp; omega)]
    have hdr : xs.drop cfg.maxSamples = zs := by
      rw [hxyz, List.drop_append_of_le_length (by simp; omega), List.drop_of_length_le (by simp; omega), List.nil_append]
    rw [List.map_cons, h6, List.length_cons, List.range_succ_eq_map, List.map_cons, List.map_map]
    congr 1
    · rw [w2 hs]
      simp [htk]
    · apply List.map_congr_left
      intro i _
      simp only [Function.comp]
      congr 2
      rw [Nat.succ_mul, Nat.add_comm, ← List.drop_drop, hdr]

/-- One whole tuning interval: all applicable configurations are sampled, then one with the smallest estimate is used. -/
theorem interval_run {cfg : TunerCfg σ C} (hst : cfg.strategies = []) (hmax : 0 < cfg.maxSamples) (hsm : cfg.smooth = none)
    {v : C → Verdict} {apps : List C} {p fuel : Nat} {t : Tuner σ C} (h : PhaseStart cfg v apps p 0 t)
    (hf : t.searchSpace.length < fuel) {xs : List (Int × Bool)} (hlen : xs.length = cfg.tuningInterval)
    (hfit : apps.length * cfg.maxSamples < cfg.tuningInterval)
    (hval : ∀ i < apps.length, chunkEstimate cfg ((xs.drop (i * cfg.maxSamples)).take cfg.maxSamples) < longMax) :
    ∃ t' i c, i < apps.length ∧ apps[i]? = some c ∧
      (∀ k < apps.length, chunkEstimate cfg ((xs.drop (i * cfg.maxSamples)).take cfg.maxSamples) ≤
        chunkEstimate cfg ((xs.drop (k * cfg.maxSamples)).take cfg.maxSamples)) ∧
      tunerRun cfg fuel v t xs = .ok (t', apps.flatMap (List.replicate cfg.maxSamples) ++
        List.replicate (cfg.tuningInterval - apps.length * cfg.maxSamples) c) ∧
      PhaseStart cfg v apps (p + 1) 0 t' ∧ t'.searchSpace.length ≤ t.searchSpace.length := by
  set n := apps.length * cfg.maxSamples with hn
  have hxl : (xs.take n).length = n := by rw [List.length_take]; omega
  obtain ⟨t1, c1, A, ws, r1, r2, r3, r4, rk, r5, r6⟩ := sampling_phase hst hmax h hf (xs := xs.take n) (by omega) (by omega)
  have hws : ws.length = apps.length := by rw [← r5, List.length_map]
  -- the chunks of the prefix are the chunks
  have hchunk : ∀ i < apps.length, ((xs.take n).drop (i * cfg.maxSamples)).take cfg.maxSamples =
      (xs.drop (i * cfg.maxSamples)).take cfg.maxSamples := by
    intro i hi
    have : (i + 1) * cfg.maxSamples ≤ n := Nat.mul_le_mul_right _ hi
    have e : (i + 1) * cfg.maxSamples = i * cfg.maxSamples + cfg.maxSamples := Nat.succ_mul _ _
    rw [List.drop_take, List.take_take]
    congr 1
    omega
  have h6 : ∀ i (hi : i < ws.length), ws[i].2 = chunkEstimate cfg ((xs.drop (i * cfg.maxSamples)).take cfg.maxSamples) := by
    intro i hi
    have := r6 hsm
    have h2 : (ws.map Prod.snd)[i]'(by simpa using hi) = ws[i].2 := by simp
    rw [← h2]
    simp only [this, List.getElem_map, List.getElem_range]
    rw [hchunk i (by omega)]
  obtain ⟨y, hy⟩ : ∃ y, xs.drop n = y :: xs.drop (n + 1) := by
    have : n < xs.length := by omega
    exact ⟨xs[n], (List.drop_eq_getElem_cons this)⟩
  have hne : ws ≠ [] := by
    intro h0
    rw [h0] at r5
    obtain ⟨c0, S, hS, -⟩ := h.next hst
    have h7 : ∀ x, t.searchSpace.getLast? = some x → False := by
      intro x hx
      have : x ∈ apps := by
        rw [← h.apps_eq]
        exact List.mem_filter.2 ⟨List.mem_of_getLast? hx, by simpa using h.last x hx⟩
      rw [← r5] at this
      simp at this
    cases hl : t.searchSpace.getLast? with
    | none => rw [List.getLast?_eq_none_iff.1 hl] at hS; simp at hS
    | some x => exact h7 x hl
  have happ : ∀ d ∈ ws, v d.1 = .applicable := by
    intro d hd
    have : d.1 ∈ apps := by rw [← r5]; exact List.mem_map.2 ⟨d, hd, rfl⟩
    rw [← h.apps_eq] at this
    simpa using (List.mem_filter.1 this).2
  have hndapps : apps.Nodup := by rw [← h.apps_eq]; exact h.nodup.filter _
  obtain ⟨d, hd, hmin, t2, s1, s2, s3⟩ := phase_end (fuel := fuel) hst r2 r3 r4 (by rw [r5]; exact hndapps) hne
    (by
      intro d hd
      obtain ⟨i, hi, rfl⟩ := List.mem_iff_getElem.1 hd
      rw [h6 i hi]
      exact hval i (by omega))
    happ (by omega)
  rw [Nat.zero_add, hxl] at s1
  have hnpos : 0 < n := by
    have : apps.length ≠ 0 := by
      rw [← hws]; intro h0; exact hne (List.length_eq_zero_iff.1 h0)
    exact Nat.mul_pos (by omega) hmax
  have hcur2 : t2.currentConfig = .ok d.1 := currentConfig_ok.2 (by rw [s1.queue]; rfl)
  -- the list after the phase, without its last element
  obtain ⟨zs, z, hz⟩ : ∃ zs z, xs.drop n = zs ++ [z] := by
    rcases List.eq_nil_or_concat' (xs.drop n) with h0 | ⟨zs, z, h0⟩
    · rw [h0] at hy; simp at hy
    · exact ⟨zs, z, h0⟩
  have hzl : zs.length + 1 = cfg.tuningInterval - n := by
    have : (xs.drop n).length = zs.length + 1 := by rw [hz]; simp
    rw [List.length_drop] at this
    omega
  -- helper: bump from settled state
  have hbump : ∀ (u : Tuner σ C) (j : Nat), Settled cfg v p j u d.1 ws → j + 1 < cfg.tuningInterval →
      Settled cfg v p (j + 1) (u.bump cfg false) d.1 ws := by
    intro u j hu hj
    have hmod : (u.iteration + 1) % cfg.tuningInterval = j + 1 := by
      rw [Nat.add_mod, hu.iter, Nat.mod_eq_of_lt (show 1 < cfg.tuningInterval by omega), Nat.mod_eq_of_lt (by omega)]
    refine ⟨hu.queue, hu.tuning, hu.noForce, hu.samples, ?_, hmod, hu.ev, hu.compat, hu.ok⟩
    simp [Tuner.bump, hmod, hu.phase]
  have hfinal : ∀ (u : Tuner σ C), Settled cfg v p (cfg.tuningInterval - 1) u d.1 ws → u.searchSpace = t1.searchSpace →
      PhaseStart cfg v apps (p + 1) 0 (u.bump cfg false) ∧ (u.bump cfg false).searchSpace.length ≤ t.searchSpace.length := by
    intro u hu hus
    have hmod : (u.iteration + 1) % cfg.tuningInterval = 0 := by
      rw [Nat.add_mod, hu.iter]
      by_cases h1 : cfg.tuningInterval = 1
      · omega
      · rw [Nat.mod_eq_of_lt (show 1 < cfg.tuningInterval by omega), Nat.sub_add_cancel (by omega), Nat.mod_self]
    have hb : (u.bump cfg false).searchSpace = t1.searchSpace := hus
    refine ⟨⟨?_, hu.samples, .inl ⟨hmod, hu.tuning⟩, hmod, ?_, hu.ev.next, ?_, ?_, ?_, ?_⟩, ?_⟩
    · have : (u.bump cfg false).queue = u.queue := rfl
      rw [this, hu.queue]; simp
    · simp [Tuner.bump, hmod, hu.phase]
    · rw [hb, rk.apps]; exact h.apps_eq
    · rw [hb]
      obtain ⟨k, hk, -⟩ := rk
      rw [hk]; exact h.nodup.filter _
    · rw [hb]; exact r4
    · rw [hb]; exact rk.last h.last
    · rw [hb]
      obtain ⟨k, hk, -⟩ := rk
      rw [hk]; exact List.length_filter_le _ _
  -- run the rest
  have hrest : ∃ t', tunerRun cfg fuel v t1 (xs.drop n) = .ok (t', List.replicate (cfg.tuningInterval - n) d.1) ∧
      PhaseStart cfg v apps (p + 1) 0 t' ∧ t'.searchSpace.length ≤ t.searchSpace.length := by
    cases zs with
    | nil =>
      rw [hz]
      simp only [List.length_nil] at hzl
      have hj : cfg.tuningInterval - 1 = n := by omega
      obtain ⟨q1, q2⟩ := hfinal t2 (by rw [hj]; exact s1) s2
      refine ⟨t2.bump cfg false, ?_, q1, q2⟩
      rw [← hzl]
      simp only [List.nil_append, tunerRun, s3 z, Outcome.bind, hcur2]
      rfl
    | cons y0 zs =>
      simp only [List.length_cons] at hzl
      have hs2 := hbump t2 n s1 (by omega)
      obtain ⟨t3, q1, q2, q3⟩ := settled_run (fuel := fuel) (by omega) zs (n + 1) _ hs2 (by omega) (by omega)
      -- last iteration
      have hcur3 : t3.currentConfig = .ok d.1 := currentConfig_ok.2 (by rw [q2.queue]; rfl)
      have hin : t3.inTuningPhase cfg = false := by
        unfold Tuner.inTuningPhase
        have : ¬ (t3.iteration % cfg.tuningInterval = 0) := by rw [q2.iter]; omega
        simp [this, q2.tuning, q2.noForce]
      have hstep : tunerIteration cfg fuel v t3 z = .ok t3 := by
        unfold tunerIteration Tuner.select Tuner.getNextConfig
        rw [hin, hcur3]
        obtain ⟨f, rfl⟩ : ∃ f, fuel = f + 1 := ⟨fuel - 1, by omega⟩
        simp only [Bool.not_false, if_true, Outcome.bind]
        unfold selectLoop
        simp [q2.ok, Tuner.measure]
      have hj : n + 1 + zs.length = cfg.tuningInterval - 1 := by omega
      rw [hj] at q2
      obtain ⟨w1, w2⟩ := hfinal t3 q2 (q3.trans s2)
      have a1 : tunerRun cfg fuel v t1 [y0] = .ok (t2.bump cfg false, [d.1]) := by
        simp only [tunerRun, s3 y0, Outcome.bind, hcur2]
      have a3 : tunerRun cfg fuel v t3 [z] = .ok (t3.bump cfg false, [d.1]) := by
        simp only [tunerRun, hstep, Outcome.bind, hcur3]
      refine ⟨t3.bump cfg false, ?_, w1, w2⟩
      have := tunerRun_append (tunerRun_append a1 q1) a3
      rw [hz, ← hzl]
      have e : List.replicate (zs.length + 1 + 1) d.1 = [d.1] ++ List.replicate zs.length d.1 ++ [d.1] := by
        rw [List.replicate_succ', List.replicate_succ]; rfl
      rw [e]
      exact this
  obtain ⟨t', q1, q2, q3⟩ := hrest
  obtain ⟨i, hi, hdi⟩ := List.mem_iff_getElem.1 hd
  refine ⟨t', i, d.1, by omega, ?_, ?_, ?_, q2, q3⟩
  · rw [← r5, List.getElem?_map, List.getElem?_eq_getElem hi, hdi]; rfl
  · intro k hk
    have := hmin ws[k] (List.getElem_mem _)
    rw [← hdi, h6 i hi, h6 k (by omega)] at this
    exact this
  · have := tunerRun_append r1 q1
    rw [List.take_append_drop] at this
    exact this

end Verif
