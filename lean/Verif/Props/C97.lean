import Verif.Lemmas.PTReset
import Mathlib.Tactic.NormNum.GCD

/-!
# C97: predictive tuning tries the configurations whose extrapolated run time is good, best first, and retests all others regularly

`Spec.lineThrough`, `Spec.IsLeastSquares`, `Spec.Interpolates` and `Spec.Predicts` say what an extrapolation is; `PT.predictionOf`, `PT.needsMore` and
`PT.Untested` (Verif/Spec/PredictiveTuning.lean) what the strategy has to decide on.

The predictions are correct only in part: see the theorems whose names end in `wrong`, `undefined` or `forgotten`.
-/
namespace Verif
open PT Spec Polynomial

variable {C : Type} [DecidableEq C]

/-- Line prediction with evidence of the last phase: the line through the last two measurements, to within one nanosecond. Missing: the run time must be in the
range of `long`. -/
theorem C97_line_partial (iteration ph : Nat) (params : List Rat) (pre : List Evidence) (e2 e1 : Evidence)
    (hf : e1.tuningPhase + 1 = ph ∨ params.length ≠ 2) (hlt : e2.iteration < e1.iteration) (hit : e1.iteration < 2 ^ 64)
    (hv : longMin ≤ e1.value) (hch : |lineThrough e2 e1 iteration - e1.value| ≤ longMax)
    (hov : lineThrough e2 e1 iteration ≤ longMax - 1) :
    ∃ r, linePrediction iteration ph params (pre ++ [e2, e1]) = .ok r ∧ Predicts 1 r.value (lineThrough e2 e1 iteration) ∧ r.tooLong = false :=
  let ⟨r, h1, h2, h3, _⟩ := linePrediction_fresh iteration ph params pre e2 e1 hf hlt hit hv hch hov
  ⟨r, h1, h2, h3⟩

/-- As long as the configuration is not measured again, the same line is used in later phases. -/
theorem C97_line_later_partial (it1 it2 ph1 ph2 : Nat) (params : List Rat) (pre : List Evidence) (e2 e1 : Evidence)
    (hf : e1.tuningPhase + 1 = ph1 ∨ params.length ≠ 2) (hph : e1.tuningPhase + 1 ≠ ph2) (hlt : e2.iteration < e1.iteration)
    (hle : e1.iteration ≤ it2) (hit : it2 < 2 ^ 64)
    (hv : longMin ≤ e1.value) (hch : |lineThrough e2 e1 it1 - e1.value| ≤ longMax) (hov : lineThrough e2 e1 it1 ≤ longMax - 1)
    (hch2 : |lineThrough e2 e1 it2 - e1.value| ≤ longMax) (hov2 : |lineThrough e2 e1 it2| ≤ longMax) :
    ∃ r r', linePrediction it1 ph1 params (pre ++ [e2, e1]) = .ok r ∧ linePrediction it2 ph2 r.params (pre ++ [e2, e1]) = .ok r' ∧
      |(r'.value : ℚ) - lineThrough e2 e1 it2| < 1 := by
  obtain ⟨r, h1, -, -, h4⟩ := linePrediction_fresh it1 ph1 params pre e2 e1 hf hlt (by omega) hv hch hov
  have hd : ((e1.iteration : ℚ) - e2.iteration) ≠ 0 := by
    have : (e2.iteration : ℚ) < e1.iteration := by exact_mod_cast hlt
    linarith
  have hline : lineThrough e2 e1 it2 =
      e1.value + (e1.value - e2.value : ℚ) / (e1.iteration - e2.iteration) * (it2 - e1.iteration) := by
    unfold lineThrough
    field_simp
    ring
  rw [hline] at hch2 hov2
  obtain ⟨v, h5, h6⟩ := linePrediction_reuse it2 ph2 ((e1.value - e2.value : ℚ) / (e1.iteration - e2.iteration)) e1.value (pre ++ [e2]) e1 hph hle hit
    (by rwa [add_sub_cancel_left] at hch2) hov2
  refine ⟨r, ⟨v, [(e1.value - e2.value : ℚ) / (e1.iteration - e2.iteration), (e1.value : ℚ)], false⟩, h1, ?_, by rw [hline]; exact h6⟩
  rw [h4]
  rw [List.append_assoc] at h5
  exact h5

/-- Linear regression with evidence of the last phase: the least-squares line through the last `n` measurements. Missing: the sum of the run times must be divisible
by `n`, since the code truncates their mean (see `C97_regression_wrong`), and everything must be in the range of `long`. -/
theorem C97_regression_partial (n iteration ph : Nat) (params : List Rat) (pre pts : List Evidence) (last : Evidence)
    (hlast : (pre ++ pts).getLast? = some last) (hn : pts.length = n) (hf : last.tuningPhase + 1 = ph ∨ params.length ≠ 2)
    (hne : ∃ e ∈ pts, ∃ f ∈ pts, e.iteration ≠ f.iteration) (hv : ∀ e ∈ pts, 0 ≤ e.value)
    (hb : (pts.map fun e : Evidence => (e.iteration : Int) * e.value).sum < longMax)
    (hdiv : (n : Int) ∣ (pts.map fun e : Evidence => e.value).sum)
    (hrange : ∀ a b, IsLeastSquares pts a b → |a + b * iteration| ≤ longMax - 1 ∧
      |a + b * iteration - ((pts.map fun e : Evidence => e.value).sum.tdiv n : Int)| ≤ longMax) :
    ∃ a b, IsLeastSquares pts a b ∧ ∃ r, linearRegression n iteration ph params (pre ++ pts) = .ok r ∧ Predicts 1 r.value (a + b * iteration) ∧
      r.tooLong = false :=
  let ⟨a, b, h0, r, h1, h2, h3, _⟩ := linearRegression_fresh n iteration ph params pre pts last hlast hn hf hne hv hb hdiv hrange
  ⟨a, b, h0, r, h1, h2, h3⟩

/-- Newton's method with evidence of the last phase: whatever number comes out is the polynomial through the last `n` measurements, to within `n` nanoseconds.
Missing: that a number comes out (undefined conversions), and later phases (see `C97_newton_later_undefined`). -/
theorem C97_newton_partial (n iteration ph : Nat) (params : List Rat) (pre pts : List Evidence) (last : Evidence)
    (hlast : (pre ++ pts).getLast? = some last) (hn : pts.length = n) (hn0 : 0 < n) (hf : last.tuningPhase + 1 = ph ∨ params.length ≠ n)
    (hinc : pts.Pairwise fun e f => e.iteration < f.iteration) (hit : ∀ e ∈ pts, e.iteration ≤ iteration) (hit64 : iteration < 2 ^ 64)
    (r : Result) (hr : newtonPolynomial n iteration ph params (pre ++ pts) = .ok r) (p : ℚ[X]) (hp : Interpolates pts p) :
    (r.value = longMax - 1 ∨ Predicts n r.value (p.eval (iteration : ℚ))) ∧ r.tooLong = false :=
  newton_fresh n iteration ph params pre pts last hlast hn hn0 hf hinc hit hit64 r hr p hp

/-- The last result: the last measurement. Missing: with a function stored before and without evidence of the last phase, the stored value is used. -/
theorem C97_last_partial (ph : Nat) (params : List Rat) (pre : List Evidence) (e : Evidence) (hf : e.tuningPhase + 1 = ph ∨ params.length ≠ 1) :
    ∃ r, lastResult ph params (pre ++ [e]) = .ok r ∧ r.value = e.value ∧ r.tooLong = false :=
  ⟨_, lastResult_fresh ph params pre e hf, rfl, rfl⟩

/-- Configurations are to be measured more often before they can be predicted exactly if there are fewer measurements than the method needs. -/
theorem C97_more_measurements (c : Cfg) (iteration ph : Nat) (ev : EvidenceMap C) (params : C → List Rat) (conf : C) (hp : params conf = [])
    (hm : 0 < c.minEvidence) (hne : getEvidence ev conf ≠ []) :
    needsMore c iteration ph ev params conf ↔ (getEvidence ev conf).length < c.minEvidence :=
  needsMore_iff c iteration ph ev params conf hp hm hne

/-- The new queue. Nothing changes unless there is a prediction. Otherwise it consists of exactly the configurations whose predictions are within the relative range of
the best one, and of those that have not been tested for too long or often enough, none of them twice; the promising ones come last (they are tested first), with
falling predictions. -/
theorem C97_queue (c : Cfg) (hc : 1 ≤ c.relativeOptimumRange) (order setOrder : List C → List C) (ho : ∀ l, (order l).Perm l)
    (hso : ∀ l, (setOrder l).Perm l) (iteration ph : Nat) (queue : List C) (hq : queue.Nodup) (ev : EvidenceMap C) (s : PT.State C)
    (hs : s.tooLong.Nodup) (queue' : List C) (s' : PT.State C)
    (h : PT.reset c order setOrder iteration ph queue ev s = .ok (queue', s')) :
    (∀ d, d ∈ s'.tooLong ↔ d ∈ s.tooLong ∨ (d ∈ queue ∧ (Untested c ph ev d ∨ needsMore c iteration ph ev s.params d))) ∧
    s'.tooLong.Nodup ∧ queue'.Nodup ∧
    (((∀ d ∈ queue, predictionOf c iteration ph ev s.params d = none) ∧ queue' = queue) ∨
     ∃ best, (∃ d ∈ queue, predictionOf c iteration ph ev s.params d = some best) ∧
      (∀ d ∈ queue, ∀ v, predictionOf c iteration ph ev s.params d = some v → best ≤ v) ∧
      ∃ watched promising, queue' = watched ++ promising ∧
        (∀ d, d ∈ promising ↔ d ∈ queue ∧ ∃ v, predictionOf c iteration ph ev s.params d = some v ∧ (v : ℚ) ≤ c.relativeOptimumRange * best) ∧
        (∀ d, d ∈ watched ↔ d ∈ s'.tooLong ∧ d ∉ promising) ∧
        promising.Pairwise (fun a b => ∀ va vb, predictionOf c iteration ph ev s.params a = some va →
          predictionOf c iteration ph ev s.params b = some vb → vb ≤ va)) :=
  reset_spec c hc order setOrder ho hso iteration ph queue hq ev s hs queue' s' h

/-- The configuration that is tested first has the best prediction. -/
theorem C97_best_first (c : Cfg) (hc : 1 ≤ c.relativeOptimumRange) (order setOrder : List C → List C) (ho : ∀ l, (order l).Perm l)
    (hso : ∀ l, (setOrder l).Perm l) (iteration ph : Nat) (queue : List C) (hq : queue.Nodup) (ev : EvidenceMap C) (s : PT.State C)
    (hs : s.tooLong.Nodup) (queue' : List C) (s' : PT.State C)
    (h : PT.reset c order setOrder iteration ph queue ev s = .ok (queue', s'))
    (d : C) (hd : d ∈ queue) (v : Int) (hv : predictionOf c iteration ph ev s.params d = some v) :
    ∃ first w, queue'.getLast? = some first ∧ first ∈ queue ∧ predictionOf c iteration ph ev s.params first = some w ∧ w ≤ v := by
  obtain ⟨-, -, -, ⟨h1, -⟩ | ⟨best, ⟨d0, hd0, hb0⟩, hmin, watched, promising, hqq, hp, -, hsort⟩⟩ :=
    reset_spec c hc order setOrder ho hso iteration ph queue hq ev s hs queue' s' h
  · rw [h1 d hd] at hv; cases hv
  · have hpos : 0 ≤ best := by
      have := hb0
      unfold predictionOf at this
      split at this
      · cases this
      · split at this
        · split at this
          · cases this
          · cases this
            exact le_max_left _ _
        · cases this
    have hin : d0 ∈ promising := (hp d0).2 ⟨hd0, best, hb0, by
      have : (0 : ℚ) ≤ best := by exact_mod_cast hpos
      nlinarith⟩
    obtain ⟨ini, last, rfl⟩ : ∃ ini last, promising = ini ++ [last] := by
      rcases List.eq_nil_or_concat promising with h | ⟨a, b, h⟩
      · rw [h] at hin; cases hin
      · exact ⟨a, b, by rw [h, List.concat_eq_append]⟩
    obtain ⟨hlq, w, hw, -⟩ := (hp last).1 (by simp)
    refine ⟨last, w, by rw [hqq, ← List.append_assoc, List.getLast?_concat], hlq, hw, ?_⟩
    have hwb : w ≤ best := by
      rw [List.mem_append] at hin
      rcases hin with hin | hin
      · exact (List.pairwise_append.1 hsort).2.2 d0 hin last (by simp) best w hb0 hw
      · simp at hin
        subst hin
        rw [hb0] at hw
        cases hw
        exact le_refl _
    exact hwb.trans (hmin d hd v hv)

/-- Every configuration is retested regularly: in a history of phases in which the whole search space is offered to the strategy and everything it leaves in the queue
is measured, the last measurement of each configuration is never older than the given number of phases. -/
theorem C97_retested (c : Cfg) (hc : 1 ≤ c.relativeOptimumRange) (space : List C) (hq : space.Nodup) (order setOrder : List C → List C)
    (ho : ∀ l, (order l).Perm l) (hso : ∀ l, (setOrder l).Perm l) (ph : Nat) (ev : EvidenceMap C) (s : PT.State C)
    (h : Phases c space order setOrder ph ev s) (h64 : ph < 2 ^ 64) (h0 : 0 < ph) (d : C) (hd : d ∈ space) :
    ∃ e, (getEvidence ev d).getLast? = some e ∧ e.tuningPhase < ph ∧ ph ≤ e.tuningPhase + max c.maxTuningPhasesWithoutTest 1 :=
  (phases_inv c hc space hq order setOrder ho hso ph ev s h h64).2.2 h0 d hd

/-- Once measured, or rejected for good, a configuration is no longer watched; all the others still are. A configuration that is rejected for the moment stays watched. -/
theorem C97_watch_list (s : PT.State C) (conf d : C) :
    (d ∈ (PT.addEvidence s conf).tooLong ↔ d ∈ s.tooLong ∧ d ≠ conf) ∧
    (d ∈ (PT.rejectConfiguration s conf true).tooLong ↔ d ∈ s.tooLong ∧ d ≠ conf) ∧ PT.rejectConfiguration s conf false = s := by
  refine ⟨?_, ?_, rfl⟩
  · unfold PT.addEvidence
    simp
  · unfold PT.rejectConfiguration
    simp

/-- A configuration without any measurement is dropped from the queue as soon as anything can be predicted, and it is not put on the watch list either. If it was
rejected in the first phase for the moment only, e.g. because it was not applicable then, it is therefore never tried again. -/
theorem C97_unmeasured_forgotten (c : Cfg) (hc : 1 ≤ c.relativeOptimumRange) (order setOrder : List C → List C) (ho : ∀ l, (order l).Perm l)
    (hso : ∀ l, (setOrder l).Perm l) (iteration ph : Nat) (queue : List C) (hq : queue.Nodup) (ev : EvidenceMap C) (s : PT.State C)
    (hs : s.tooLong.Nodup) (queue' : List C) (s' : PT.State C)
    (h : PT.reset c order setOrder iteration ph queue ev s = .ok (queue', s'))
    (hpred : ∃ d ∈ queue, predictionOf c iteration ph ev s.params d ≠ none)
    (d : C) (hev : getEvidence ev d = []) (hd : d ∉ s.tooLong) : d ∉ queue' ∧ d ∉ s'.tooLong := by
  obtain ⟨h1, -, -, h4⟩ := reset_spec c hc order setOrder ho hso iteration ph queue hq ev s hs queue' s' h
  have hnot : d ∉ s'.tooLong := by
    rw [h1]
    rintro (h | ⟨-, ⟨e, he, -⟩ | h⟩)
    · exact hd h
    · rw [hev] at he; cases he
    · exact h.1 hev
  refine ⟨?_, hnot⟩
  rcases h4 with ⟨h5, -⟩ | ⟨best, -, -, watched, promising, rfl, hp, hw, -⟩
  · obtain ⟨d0, hd0, hne⟩ := hpred
    exact absurd (h5 d0 hd0) hne
  · rw [List.mem_append]
    rintro (h | h)
    · exact hnot ((hw d).1 h).1
    · obtain ⟨-, v, hv, -⟩ := (hp d).1 h
      unfold predictionOf at hv
      rw [if_pos hev] at hv
      cases hv

/-- Evaluating the Newton polynomial in a later phase reads in front of the evidence vector if there are just the measurements the polynomial was made from. -/
theorem C97_newton_later_undefined (n iteration ph : Nat) (params : List Rat) (ev : List Evidence) (last : Evidence) (hlast : ev.getLast? = some last)
    (hn : ev.length = n) (h2 : 2 ≤ n) (hn64 : n < 2 ^ 64) (hp : params.length = n) (hnot : last.tuningPhase + 1 ≠ ph) (v : Int)
    (h0 : toLong (params.getD 0 0) = .ok v) (hv : v ≤ longMax) : newtonPolynomial n iteration ph params ev = .ub :=
  newton_reuse_ub n iteration ph params ev last hlast hn h2 hn64 hp hnot v h0 hv

/-- Such a history: two measurements, 200 ns in iteration 20 after 100 ns in iteration 10 (phases 0, 1). The prediction in phase 2 is fine, the one in phase 3 undefined. -/
theorem C97_newton_history_undefined :
    newtonPolynomial 2 30 2 [] [⟨10, 0, 100⟩, ⟨20, 1, 200⟩] = .ok ⟨300, [100, 10], false⟩ ∧
    newtonPolynomial 2 40 3 [100, 10] [⟨10, 0, 100⟩, ⟨20, 1, 200⟩] = .ub := by
  constructor <;> decide +kernel

/-- With more measurements, the polynomial is evaluated with the wrong points: 100 ns, 200 ns, 300 ns in the iterations 10, 20, 30 give 400 ns in iteration 40, but then
600 ns instead of 500 ns in iteration 50. -/
theorem C97_newton_later_wrong :
    newtonPolynomial 2 40 3 [] [⟨10, 0, 100⟩, ⟨20, 1, 200⟩, ⟨30, 2, 300⟩] = .ok ⟨400, [200, 10], false⟩ ∧
    newtonPolynomial 2 50 4 [200, 10] [⟨10, 0, 100⟩, ⟨20, 1, 200⟩, ⟨30, 2, 300⟩] = .ok ⟨600, [200, 10], false⟩ := by
  constructor <;> decide +kernel

/-- The truncated mean of the run times spoils the regression: 10 ns in iteration 1000000 and 11 ns in iteration 1000010 lie on a line that gives 12 ns in iteration
1000020, but the prediction is 300013 ns. -/
theorem C97_regression_wrong :
    IsLeastSquares [⟨1000000, 0, 10⟩, ⟨1000010, 1, 11⟩] (10 - 100000) (1 / 10) ∧ ((10 - 100000 : ℚ) + 1 / 10 * 1000020 = 12) ∧
    ∃ p, linearRegression 2 1000020 2 [] [⟨1000000, 0, 10⟩, ⟨1000010, 1, 11⟩] = .ok ⟨300013, p, false⟩ := by
  refine ⟨?_, by norm_num, ?_⟩
  · apply leastSquares_of_normal <;> norm_num [sumOf]
  · exact ⟨[100001 / 5, 10 - 100001 / 5 * 1000005], by decide +kernel⟩

/-! ### The hypotheses can be met -/

example : ∃ r, linePrediction 30 2 [] ([] ++ [⟨10, 0, 100⟩, ⟨20, 1, 150⟩]) = .ok r ∧ Predicts 1 r.value (lineThrough ⟨10, 0, 100⟩ ⟨20, 1, 150⟩ 30) ∧
    r.tooLong = false :=
  C97_line_partial 30 2 [] [] ⟨10, 0, 100⟩ ⟨20, 1, 150⟩ (Or.inl rfl) (by decide) (by decide) (by decide)
    (by norm_num [lineThrough, longMax]) (by norm_num [lineThrough, longMax])

example : linePrediction 30 2 [] [⟨10, 0, 100⟩, ⟨20, 1, 150⟩] = .ok ⟨200, [5, 150], false⟩ := by decide +kernel

example : linearRegression 3 40 3 [] [⟨10, 0, 100⟩, ⟨20, 1, 150⟩, ⟨30, 2, 140⟩] = .ok ⟨170, [2, 90], false⟩ := by decide +kernel

/-- A queue of three: the fast configuration is tested first, the slow one is dropped unless it has not been tested for long. -/
example : (PT.reset (C := Nat) ⟨2, 5, 1, .lastResult⟩ id id 30 2 [0, 1, 2] [(0, [⟨10, 1, 100⟩]), (1, [⟨11, 1, 50⟩]), (2, [⟨12, 1, 400⟩])] ⟨fun _ => [], []⟩).bind
    (fun r => .ok r.1) = .ok [0, 1] ∧
    (PT.reset (C := Nat) ⟨2, 5, 1, .lastResult⟩ id id 30 6 [0, 1, 2] [(0, [⟨10, 5, 100⟩]), (1, [⟨11, 5, 50⟩]), (2, [⟨12, 1, 400⟩])] ⟨fun _ => [], []⟩).bind
    (fun r => .ok r.1) = .ok [2, 0, 1] := by
  constructor <;> decide +kernel

/-- A history of two phases. -/
example : ∃ s, Phases (C := Nat) ⟨2, 5, 1, .lastResult⟩ [0, 1] id id 1 [(0, [⟨10, 0, 100⟩]), (1, [⟨11, 0, 50⟩])] s :=
  ⟨_, .next .start
    { iteration := 0
      queue := [0, 1]
      mid := ⟨fun _ => [], []⟩
      resets := by rfl
      tested := by intro d hd; simp at hd; rcases hd with rfl | rfl <;> exact ⟨_, rfl, rfl⟩
      untouched := by
        intro d hd
        simp at hd
        have h0 : ¬ 0 = d := fun h => hd.1 h.symm
        have h1 : ¬ 1 = d := fun h => hd.2 h.symm
        simp [getEvidence, h0, h1]
      state := rfl }⟩

end Verif
