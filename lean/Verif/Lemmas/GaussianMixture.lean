import Verif.Lemmas.GaussianRun
import Mathlib.Topology.Algebra.Order.Field
/-! Different sets of hyperparameters predict different values. -/
namespace Verif
open Spec Finset Filter

theorem mixture_identity (parts : List (ℝ × ℝ × ℝ)) (h1 : (parts.map fun p => p.1).sum = 1) :
    mixtureVariance parts = (parts.map fun p => p.1 * p.2.2).sum +
      (parts.map fun p => p.1 * (p.2.1 - (parts.map fun p => p.1 * p.2.1).sum) ^ 2).sum := by
  unfold mixtureVariance
  obtain ⟨M, hM⟩ : ∃ M, M = (parts.map fun p => p.1 * p.2.1).sum := ⟨_, rfl⟩
  rw [← hM]
  have gen : ∀ l : List (ℝ × ℝ × ℝ), (l.map fun p => p.1 * (p.2.2 + p.2.1 ^ 2)).sum = (l.map fun p => p.1 * p.2.2).sum +
      (l.map fun p => p.1 * (p.2.1 - M) ^ 2).sum + 2 * M * (l.map fun p => p.1 * p.2.1).sum - M ^ 2 * (l.map fun p => p.1).sum := by
    intro l
    induction l with
    | nil => simp
    | cons a l ih =>
      simp only [List.map_cons, List.sum_cons]
      rw [ih]
      ring
  rw [gen parts, h1, ← hM]
  ring

theorem sum_pos_of_exists {α : Type} {l : List α} {f : α → ℝ} (h0 : ∀ x ∈ l, 0 ≤ f x) {a : α} (ha : a ∈ l) (hpos : 0 < f a) : 0 < (l.map f).sum := by
  induction l with
  | nil => simp at ha
  | cons b l ih =>
    rw [List.map_cons, List.sum_cons]
    have hb := h0 b (by simp)
    have hl : 0 ≤ (l.map f).sum := List.sum_nonneg fun x hx => by
      obtain ⟨y, hy, rfl⟩ := List.mem_map.1 hx
      exact h0 y (by simp [hy])
    rcases List.mem_cons.1 ha with rfl | ha
    · linarith
    · have := ih (fun x hx => h0 x (by simp [hx])) ha
      linarith

theorem realGrid_nodup {lo hi : ℝ} (h : lo < hi) {n : ℕ} (hn : 2 ≤ n) : (realGrid lo hi n).Nodup := by
  unfold realGrid
  rw [if_neg (by omega), if_neg (by omega)]
  have hn0 : (0 : ℝ) < ((n - 1 : ℕ) : ℝ) := by exact_mod_cast (by omega : 0 < n - 1)
  have hd : 0 < (hi - lo) / ((n - 1 : ℕ) : ℝ) := div_pos (by linarith) hn0
  rw [List.nodup_append]
  refine ⟨?_, by simp, ?_⟩
  · apply List.Nodup.map _ List.nodup_range
    intro i j hij
    simp only at hij
    have h2 : (hi - lo) / ((n - 1 : ℕ) : ℝ) * (i : ℝ) = (hi - lo) / ((n - 1 : ℕ) : ℝ) * (j : ℝ) := by linarith
    exact_mod_cast mul_left_cancel₀ hd.ne' h2
  · intro a ha b hb
    obtain ⟨i, hi', rfl⟩ := List.mem_map.1 ha
    rw [List.mem_range] at hi'
    rw [List.mem_singleton.1 hb]
    have hin : (i : ℝ) < ((n - 1 : ℕ) : ℝ) := by exact_mod_cast hi'
    have h2 : (hi - lo) / ((n - 1 : ℕ) : ℝ) * (i : ℝ) < hi - lo := by
      rw [div_mul_eq_mul_div, div_lt_iff₀ hn0]
      exact mul_lt_mul_of_pos_left hin (by linarith)
    intro he
    linarith

theorem getD_ne {l : List ℝ} (h : l.Nodup) {i j : ℕ} (hi : i < l.length) (hj : j < l.length) (hij : i ≠ j) : l.getD i 0 ≠ l.getD j 0 := by
  rw [List.getD_eq_getElem _ _ hi, List.getD_eq_getElem _ _ hj]
  intro he
  exact hij ((List.Nodup.getElem_inj_iff h).1 he)

theorem kernel_tendsto {theta s : ℝ} (hs : 0 < s) (c : ℝ) :
    Tendsto (fun X : ℝ => gpKernel (d := 1) (fun _ => X) (fun _ => c) theta (fun _ => s)) atTop (nhds 0) := by
  have h1 : Tendsto (fun X : ℝ => X - c) atTop atTop := by
    simpa [sub_eq_add_neg] using tendsto_atTop_add_const_right atTop (-c) tendsto_id
  have h2 : Tendsto (fun X : ℝ => (X - c) * ((X - c) * s)) atTop atTop := h1.atTop_mul_atTop₀ (h1.atTop_mul_const hs)
  have h3 : Tendsto (fun X : ℝ => Real.exp (-((X - c) * ((X - c) * s)))) atTop (nhds 0) := Real.tendsto_exp_neg_atTop_nhds_zero.comp h2
  have h4 := h3.const_mul theta
  rw [mul_zero] at h4
  simpa [gpKernel] using h4

theorem hyperMean_tendsto {n : ℕ} {inputs : Fin n → Fin 1 → ℝ} {h : GaussHyper 1 n} (hs : 0 < h.dimScales 0) :
    Tendsto (fun X : ℝ => gpHyperMean inputs h fun _ => X) atTop (nhds h.mean) := by
  unfold gpHyperMean
  by_cases hn : n = 0
  · simp only [if_pos hn]
    exact tendsto_const_nhds
  · simp only [if_neg hn]
    have hsum : Tendsto (fun X : ℝ => ∑ i, gpKernel (d := 1) (fun _ => X) (inputs i) h.theta h.dimScales * h.weights i) atTop (nhds (∑ i : Fin n, (0 : ℝ))) := by
      apply tendsto_finsetSum
      intro i _
      have h1 := (kernel_tendsto (theta := h.theta) hs (inputs i 0)).mul_const (h.weights i)
      rw [zero_mul] at h1
      have e1 : (fun _ : Fin 1 => inputs i 0) = inputs i := by funext k; rw [Subsingleton.elim k 0]
      have e2 : (fun _ : Fin 1 => h.dimScales 0) = h.dimScales := by funext k; rw [Subsingleton.elim k 0]
      rw [e1, e2] at h1
      exact h1
    have := hsum.const_add h.mean
    simpa using this

theorem three_distinct {l : List ℕ} (h : l.Nodup) (hl : 3 ≤ l.length) : ∃ a ∈ l, ∃ b ∈ l, ∃ c ∈ l, a ≠ b ∧ a ≠ c ∧ b ≠ c := by
  match l, h, hl with
  | a :: b :: c :: l, h, _ =>
    simp only [List.nodup_cons, List.mem_cons, not_or] at h
    exact ⟨a, by simp, b, by simp, c, by simp, h.1.1, h.1.2.1, h.2.1.1⟩

/-- Once two observations differ, two of the sets of hyperparameters predict different values somewhere. -/
theorem means_differ {env : GaussEnv} {sigma : ℝ} (henv : env.Ok) (hsig : 0 < sigma) {n : ℕ} (hn : n ≠ 0) {inputs : Fin n → Fin 1 → ℝ} {outputs : Fin n → ℝ} {lo hi : ℝ}
    (h : lo < hi) (r : ℕ) :
    ∃ X : ℝ, ∃ h1 ∈ gpTune env sigma r inputs outputs lo hi, ∃ h2 ∈ gpTune env sigma r inputs outputs lo hi,
      gpHyperMean inputs h1 (fun _ => X) ≠ gpHyperMean inputs h2 (fun _ => X) := by
  obtain ⟨idx, Z, z1, z2, z3, z4, z5, -, -⟩ := gpTune_spec henv hsig hn (inputs := inputs) (outputs := outputs) h.le r
  obtain ⟨a, ha, b, hb, c, hc, hab, hac, hbc⟩ := three_distinct z3 (by rw [z2]; decide)
  have hmean : ∀ i j, i < gpSampleSize → j < gpSampleSize → i ≠ j →
      (gpSample (d := 1) env r sigma lo hi i).1 ≠ (gpSample (d := 1) env r sigma lo hi j).1 := by
    intro i j hi' hj hij
    have hp := henv.shuffle r 0 (realGrid lo hi gpSampleSize)
    have hl : (env.shuffle r 0 (realGrid lo hi gpSampleSize)).length = gpSampleSize := by rw [hp.length_eq, (realGrid_spec h.le _).1]
    exact getD_ne (hp.nodup_iff.2 (realGrid_nodup h (by decide))) (by omega) (by omega) hij
  have hscale : ∀ i j, i < gpSampleSize → j < gpSampleSize → i ≠ j →
      (gpSample (d := 1) env r sigma lo hi i).2.2 0 ≠ (gpSample (d := 1) env r sigma lo hi j).2.2 0 := by
    intro i j hi' hj hij
    have hlt : (0 : ℝ) < 5 + max 0 (Real.log (gpThetaMax sigma lo hi)) := by have := le_max_left 0 (Real.log (gpThetaMax sigma lo hi)); linarith
    have hp := henv.shuffle r (2 + (0 : Fin 1)) (realGrid 0 (5 + max 0 (Real.log (gpThetaMax sigma lo hi))) gpSampleSize)
    have hl : (env.shuffle r (2 + (0 : Fin 1)) (realGrid 0 (5 + max 0 (Real.log (gpThetaMax sigma lo hi))) gpSampleSize)).length = gpSampleSize := by
      rw [hp.length_eq, (realGrid_spec hlt.le _).1]
    exact getD_ne (hp.nodup_iff.2 (realGrid_nodup hlt (by decide))) (by omega) (by omega) hij
  have hnn : ∀ i ∈ idx, 0 ≤ (gpSample (d := 1) env r sigma lo hi i).2.2 0 := fun i hi' => (gpSample_range henv h.le r (z4 i hi')).2.2.2 0
  have key : ∀ i ∈ idx, ∀ j ∈ idx, i ≠ j → 0 < (gpSample (d := 1) env r sigma lo hi i).2.2 0 → 0 < (gpSample (d := 1) env r sigma lo hi j).2.2 0 →
      ∃ X : ℝ, ∃ h1 ∈ gpTune env sigma r inputs outputs lo hi, ∃ h2 ∈ gpTune env sigma r inputs outputs lo hi,
        gpHyperMean inputs h1 (fun _ => X) ≠ gpHyperMean inputs h2 (fun _ => X) := by
    intro i hi' j hj hij si sj
    by_contra hcon
    push Not at hcon
    have hm : ∀ t ∈ idx, _ ∈ gpTune env sigma r inputs outputs lo hi := fun t ht => by rw [z5]; exact List.mem_map_of_mem ht
    have t1 := hyperMean_tendsto (inputs := inputs) (h := { gpPrecalculate env sigma inputs outputs (gpSample (d := 1) env r sigma lo hi i).1 (gpSample (d := 1) env r sigma lo hi i).2.1
          (gpSample (d := 1) env r sigma lo hi i).2.2 with
          score := gpLikelihood sigma inputs outputs (gpSample (d := 1) env r sigma lo hi i).1 (gpSample (d := 1) env r sigma lo hi i).2.1
            (gpSample (d := 1) env r sigma lo hi i).2.2 / Z }) si
    have t2 := hyperMean_tendsto (inputs := inputs) (h := { gpPrecalculate env sigma inputs outputs (gpSample (d := 1) env r sigma lo hi j).1 (gpSample (d := 1) env r sigma lo hi j).2.1
          (gpSample (d := 1) env r sigma lo hi j).2.2 with
          score := gpLikelihood sigma inputs outputs (gpSample (d := 1) env r sigma lo hi j).1 (gpSample (d := 1) env r sigma lo hi j).2.1
            (gpSample (d := 1) env r sigma lo hi j).2.2 / Z }) sj
    have hfun := funext fun X => hcon X _ (hm i hi') _ (hm j hj)
    rw [hfun] at t1
    exact hmean i j (z4 i hi') (z4 j hj) hij (tendsto_nhds_unique t1 t2)
  have pos : ∀ i ∈ idx, ∀ j ∈ idx, i ≠ j → (gpSample (d := 1) env r sigma lo hi i).2.2 0 = 0 → 0 < (gpSample (d := 1) env r sigma lo hi j).2.2 0 := by
    intro i hi' j hj hij h0
    refine lt_of_le_of_ne (hnn j hj) ?_
    rw [← h0]
    exact hscale i j (z4 i hi') (z4 j hj) hij
  by_cases sa : (gpSample (d := 1) env r sigma lo hi a).2.2 0 = 0
  · exact key b hb c hc hbc (pos a ha b hb hab sa) (pos a ha c hc hac sa)
  · have sa' := lt_of_le_of_ne (hnn a ha) (Ne.symm sa)
    by_cases sb : (gpSample (d := 1) env r sigma lo hi b).2.2 0 = 0
    · exact key a ha c hc hac sa' (pos b hb c hc hbc sb)
    · exact key a ha b hb hab sa' (lt_of_le_of_ne (hnn b hb) (Ne.symm sb))

end Verif
