import Verif.Lemmas.Smoothing
import Verif.Lemmas.LogicControl
import Verif.Lemmas.MDObjectsPacked
/-!
C107: smoothing of measurements.

The model is `Model/Smoothing.lean`, what smoothing means is stated in `Spec/Smoothing.lean`.
-/
namespace Verif

open Spec.Smoothing

theorem sorted_last {points : List Evidence} (hs : points.Pairwise fun p q => p.iteration ≤ q.iteration) {back : Evidence}
    (hback : points.getLast? = some back) : ∀ p ∈ points, p.iteration ≤ back.iteration := by
  obtain ⟨ys, rfl⟩ := List.getLast?_eq_some_iff.1 hback
  intro p hp
  rcases List.mem_append.1 hp with h | h
  · exact (List.pairwise_append.1 hs).2.2 p h back (List.mem_singleton.2 rfl)
  · rw [List.mem_singleton.1 h]

theorem sorted_first {before neighbors : List Evidence} (hs : (before ++ neighbors).Pairwise fun p q => p.iteration ≤ q.iteration) {first : Evidence}
    (hfirst : neighbors.head? = some first) : ∀ p ∈ neighbors, first.iteration ≤ p.iteration := by
  have hs := (List.pairwise_append.1 hs).2.1
  cases neighbors with
  | nil => intro p hp; cases hp
  | cons q qs =>
    simp only [List.head?_cons, Option.some.injEq] at hfirst
    subst hfirst
    intro p hpm
    rcases List.mem_cons.1 hpm with rfl | h
    · exact le_rfl
    · exact (List.pairwise_cons.1 hs).1 p h

/-- The smoothed value is the value at the last point, rounded to the nearest integer, of the line that fits the last `k` measurements best, or of the
best constant if their iterations are too close together compared to the whole history. -/
theorem C107_fit {points before neighbors : List Evidence} {k : Nat} (hk : 2 ≤ k) (hp : points = before ++ neighbors)
    (hlen : neighbors.length = min k points.length) {front first back : Evidence} (hfront : points.head? = some front)
    (hfirst : neighbors.head? = some first) (hback : points.getLast? = some back)
    (hsorted : points.Pairwise fun p q => p.iteration ≤ q.iteration) (hlt : first.iteration < back.iteration) (hsize : back.iteration < 2 ^ 63) :
    ∃ fit : Rat,
      (∀ v, Variance first.iteration back.iteration neighbors v →
        (((back.iteration : Rat) - front.iteration) ^ 2 / 10 ^ 6 < v →
          (∃ a b, BestLine first.iteration back.iteration neighbors a b) ∧
            ∀ a b, BestLine first.iteration back.iteration neighbors a b → fit = a + b * back.iteration) ∧
        (v ≤ ((back.iteration : Rat) - front.iteration) ^ 2 / 10 ^ 6 → BestConstant first.iteration back.iteration neighbors fit)) ∧
      (|fit| ≤ 2 ^ 63 - 1 → ∃ r, smoothLastPoint points k = .ok r ∧ Nearest fit r) := by
  have hle := sorted_last hsorted hback
  have hge := sorted_first (hp ▸ hsorted) hfirst
  have hfl : front.iteration ≤ back.iteration := hle front (List.mem_of_head? hfront)
  obtain ⟨hlast, hu, hU, heq⟩ := smoothLastPoint_eq hk hp hlen hfront hfirst hback hle hge hfl hlt hsize
  obtain ⟨m, v, hm, hv, h1, h2⟩ := calculateYFit_eq (fun p => weight first.iteration back.iteration p.iteration) neighbors hlast hU
    ((back.iteration : Rat) - front.iteration)
  refine ⟨calculateYFit neighbors (neighbors.map fun p => weight first.iteration back.iteration p.iteration /
      (neighbors.map fun p => weight first.iteration back.iteration p.iteration).sum) ((back.iteration : Rat) - front.iteration),
    fun v' hv' => ?_, fun hfit => ?_⟩
  · obtain ⟨m', hm', hv'⟩ := hv'
    have em : m' = m := mul_left_cancel₀ hU.ne' (hm'.trans hm.symm)
    rw [em] at hv'
    have ev : v' = v := mul_left_cancel₀ hU.ne' (hv'.trans hv.symm)
    rw [ev]
    have hR : (1 : Rat) / 10 ^ 6 * ((back.iteration : Rat) - front.iteration) * ((back.iteration : Rat) - front.iteration) =
        ((back.iteration : Rat) - front.iteration) ^ 2 / 10 ^ 6 := by ring
    refine ⟨fun h => ?_, fun h => ?_⟩
    · have hv0 : 0 < v := lt_of_le_of_lt (by positivity) h
      obtain ⟨⟨a, b, _, hbest⟩, huniq⟩ := regression _ neighbors hu hU hm hv hv0 (back.iteration : Rat) _ (h1 (by rw [hR]; exact h))
      exact ⟨⟨a, b, hbest⟩, huniq⟩
    · intro c'
      exact mean_best _ neighbors hu (h2 (by rw [hR]; exact not_lt.2 h)) c'
  · obtain ⟨r, hr⟩ := lround_ok hfit
    exact ⟨r, heq.trans hr, lround_nearest hr⟩

/-- Equal measurements are not changed, however they are spaced. -/
theorem C107_constant {points before neighbors : List Evidence} {k : Nat} (hk : 2 ≤ k) (hp : points = before ++ neighbors)
    (hlen : neighbors.length = min k points.length) {front first back : Evidence} (hfront : points.head? = some front)
    (hfirst : neighbors.head? = some first) (hback : points.getLast? = some back)
    (hsorted : points.Pairwise fun p q => p.iteration ≤ q.iteration) (hlt : first.iteration < back.iteration) (hsize : back.iteration < 2 ^ 63)
    {c : Int} (hc : ∀ p ∈ neighbors, p.value = c) (hrange : -2 ^ 63 ≤ c ∧ c < 2 ^ 63) : smoothLastPoint points k = .ok c := by
  have hle := sorted_last hsorted hback
  have hge := sorted_first (hp ▸ hsorted) hfirst
  have hfl : front.iteration ≤ back.iteration := hle front (List.mem_of_head? hfront)
  obtain ⟨hlast, hu, hU, heq⟩ := smoothLastPoint_eq hk hp hlen hfront hfirst hback hle hge hfl hlt hsize
  obtain ⟨m, v, hm, hv, h1, h2⟩ := calculateYFit_eq (fun p => weight first.iteration back.iteration p.iteration) neighbors hlast hU
    ((back.iteration : Rat) - front.iteration)
  suffices h : calculateYFit neighbors (neighbors.map fun p => weight first.iteration back.iteration p.iteration /
      (neighbors.map fun p => weight first.iteration back.iteration p.iteration).sum) ((back.iteration : Rat) - front.iteration) = (c : Rat) by
    rw [heq, h]
    exact lround_int hrange
  apply mul_left_cancel₀ hU.ne'
  by_cases hcase : 1 / 10 ^ 6 * ((back.iteration : Rat) - front.iteration) * ((back.iteration : Rat) - front.iteration) < v
  · rw [h1 hcase]
    have hmom := moments (fun p => weight first.iteration back.iteration p.iteration) neighbors (c * (1 - ((back.iteration : Rat) - m) / v * m))
      (c * (((back.iteration : Rat) - m) / v)) 0 0 0
    rw [List.map_congr_left (g := fun p => weight first.iteration back.iteration p.iteration * ((c * (1 - ((back.iteration : Rat) - m) / v * m)) +
      (c * (((back.iteration : Rat) - m) / v)) * p.iteration + 0 * (p.iteration : Rat) ^ 2 + 0 * p.value + 0 * (p.iteration * p.value)))
      (fun p hpn => by rw [hc p hpn]; ring), hmom, ← hm]
    ring
  · rw [h2 hcase]
    have hmom := moments (fun p => weight first.iteration back.iteration p.iteration) neighbors (c : Rat) 0 0 0 0
    rw [List.map_congr_left (g := fun p => weight first.iteration back.iteration p.iteration * ((c : Rat) + 0 * p.iteration +
      0 * (p.iteration : Rat) ^ 2 + 0 * p.value + 0 * (p.iteration * p.value))) (fun p hpn => by rw [hc p hpn]; ring), hmom]
    ring

/-- Measurements on a line are not changed, unless they are too close together compared to the whole history. -/
theorem C107_line {points before neighbors : List Evidence} {k : Nat} (hk : 2 ≤ k) (hp : points = before ++ neighbors)
    (hlen : neighbors.length = min k points.length) {front first back : Evidence} (hfront : points.head? = some front)
    (hfirst : neighbors.head? = some first) (hback : points.getLast? = some back)
    (hsorted : points.Pairwise fun p q => p.iteration ≤ q.iteration) (hlt : first.iteration < back.iteration) (hsize : back.iteration < 2 ^ 63)
    {a b : Rat} (hline : ∀ p ∈ neighbors, (p.value : Rat) = a + b * p.iteration) (hrange : |back.value| ≤ 2 ^ 63 - 1)
    {v : Rat} (hv : Variance first.iteration back.iteration neighbors v) (hv0 : ((back.iteration : Rat) - front.iteration) ^ 2 / 10 ^ 6 < v) :
    smoothLastPoint points k = .ok back.value := by
  obtain ⟨fit, h1, h2⟩ := C107_fit hk hp hlen hfront hfirst hback hsorted hlt hsize
  have hne : neighbors ≠ [] := by rintro rfl; cases hfirst
  have hlast : neighbors.getLast? = some back := by
    rw [hp, List.getLast?_append_of_ne_nil _ hne] at hback
    exact hback
  have hge : ∀ p ∈ neighbors, 0 ≤ weight first.iteration back.iteration p.iteration := fun p hpm =>
    weight_nonneg (sorted_first (hp ▸ hsorted) hfirst p hpm) (sorted_last hsorted hback p (by rw [hp]; exact List.mem_append_right _ hpm)) hlt
  have hbest : BestLine first.iteration back.iteration neighbors a b := by
    intro a' b'
    have h0 : loss first.iteration back.iteration neighbors a b = 0 := by
      unfold loss
      apply List.sum_eq_zero
      intro x hx
      obtain ⟨p, hpm, rfl⟩ := List.mem_map.1 hx
      rw [hline p hpm]
      ring
    rw [h0]
    exact sum_sq_nonneg (fun p => weight first.iteration back.iteration p.iteration) neighbors hge fun p => (p.value : Rat) - (a' + b' * p.iteration)
  have hfit : fit = (back.value : Rat) := by
    rw [((h1 v hv).1 hv0).2 a b hbest, hline back (List.mem_of_getLast? hlast)]
  obtain ⟨r, hr, hnear⟩ := h2 (by rw [hfit]; exact_mod_cast hrange)
  have := hnear back.value
  rw [hfit, sub_self, abs_zero] at this
  have h0 := abs_eq_zero.1 (le_antisymm this (abs_nonneg _))
  have : r = back.value := by
    have h3 : (back.value : Rat) = (r : Rat) := by linarith
    exact_mod_cast h3.symm
  rw [hr, this]

/-- Smoothing never raises the evidence above the measurement. -/
theorem C107_never_higher : ∀ (es stored result : List Evidence), smoothedHistory stored es = .ok result →
    ∃ new, result = stored ++ new ∧ List.Forall₂ (fun s m => s.iteration = m.iteration ∧ s.tuningPhase = m.tuningPhase ∧ s.value ≤ m.value) new es := by
  intro es
  induction es with
  | nil =>
    intro stored result h
    exact ⟨[], by rw [← Outcome.ok.inj h, List.append_nil], List.Forall₂.nil⟩
  | cons e es ih =>
    intro stored result h
    rw [smoothedHistory, Outcome.bind_ok] at h
    obtain ⟨s, hs, h⟩ := h
    rw [addSmoothed, Outcome.bind_ok] at hs
    obtain ⟨v, _, hs⟩ := hs
    obtain rfl := Outcome.ok.inj hs
    obtain ⟨new, rfl, hnew⟩ := ih _ _ h
    exact ⟨{ e with value := min e.value v } :: new, by rw [List.append_assoc]; rfl, List.Forall₂.cons ⟨rfl, rfl, min_le_left _ _⟩ hnew⟩

/-! ### Violations -/

/-- A configuration that has become faster gets a negative evidence, far below everything that was ever measured, and is preferred to one that was
measured to be twice as fast all the time. -/
theorem C107_violated_outlier : ∃ slow fast : List Evidence, (∀ e ∈ slow, 10 ≤ e.value) ∧ (∀ e ∈ fast, e.value = 5) ∧
    (∃ s, smoothedHistory [] slow = .ok s ∧ (s.map (·.value)).getLast? = some (-122)) ∧
    (∃ s, smoothedHistory [] fast = .ok s ∧ (s.map (·.value)).getLast? = some 5) := by
  refine ⟨[⟨0, 0, 1000⟩, ⟨1, 1, 1000⟩, ⟨2, 2, 10⟩, ⟨3, 3, 10⟩, ⟨4, 4, 10⟩], [⟨0, 0, 5⟩, ⟨1, 1, 5⟩, ⟨2, 2, 5⟩, ⟨3, 3, 5⟩, ⟨4, 4, 5⟩], ?_, ?_, ?_, ?_⟩
  · decide
  · decide
  · exact ⟨[⟨0, 0, 1000⟩, ⟨1, 1, 1000⟩, ⟨2, 2, 10⟩, ⟨3, 3, -109⟩, ⟨4, 4, -122⟩], by decide +kernel, rfl⟩
  · exact ⟨[⟨0, 0, 5⟩, ⟨1, 1, 5⟩, ⟨2, 2, 5⟩, ⟨3, 3, 5⟩, ⟨4, 4, 5⟩], by decide +kernel, rfl⟩

/-- The result does not only depend on the points in the neighbourhood: an old measurement turns the fit of a line into that of a constant. -/
theorem C107_violated_window : ∃ (old : Evidence) (last : List Evidence), last.length = 5 ∧ smoothLastPoint last 5 = .ok 18 ∧
    smoothLastPoint (old :: last) 5 = .ok 16 := by
  refine ⟨⟨0, 0, 7⟩, [⟨1000000, 1, 10⟩, ⟨1000001, 2, 12⟩, ⟨1000002, 3, 14⟩, ⟨1000003, 4, 16⟩, ⟨1000004, 5, 18⟩], rfl, ?_, ?_⟩ <;> decide +kernel

/-- Several measurements in the same iteration: the documentation says smoothing does not change the point, but the weights are 0/0. -/
theorem C107_violated_same_iteration (points : List Evidence) (hn : 2 ≤ points.length) {x : Nat} (h : ∀ p ∈ points, p.iteration = x) (k : Nat) (hk : 2 ≤ k) :
    smoothLastPoint points k = .ub := by
  obtain ⟨back, hb⟩ : ∃ b, points.getLast? = some b := ⟨points.getLast (by rintro rfl; simp at hn), List.getLast?_eq_some_getLast _⟩
  obtain ⟨front, hf⟩ : ∃ b, points.head? = some b := by
    cases points with
    | nil => simp at hn
    | cons p ps => exact ⟨p, rfl⟩
  have hb' := h back (List.mem_of_getLast? hb)
  rw [smoothLastPoint, if_neg (by omega), hf, hb]
  dsimp only
  rw [if_pos]
  have : (((points.drop (points.length - min k points.length)).head?).getD back).iteration = x := by
    cases hd : (points.drop (points.length - min k points.length)).head? with
    | none => exact hb'
    | some q => exact h q (List.mem_of_mem_drop (List.mem_of_head? hd))
  rw [this, hb', subSize]
  omega

/-- No points and too small a neighbourhood: the last of no points is asked for. -/
theorem C107_violated_no_points (k : Nat) (hk : k < 2) : smoothLastPoint [] k = .ub := by
  rw [smoothLastPoint, if_pos (Or.inl hk)]
  rfl

/-! ### The hypotheses are met -/

/-- Five measurements on a line, and their variance. -/
example : smoothLastPoint [⟨0, 0, 10⟩, ⟨2, 1, 12⟩, ⟨4, 2, 14⟩, ⟨6, 3, 16⟩, ⟨8, 4, 18⟩] 5 = .ok 18 := by decide +kernel

example : ∃ v, Variance 0 8 [⟨0, 0, 10⟩, ⟨2, 1, 12⟩, ⟨4, 2, 14⟩, ⟨6, 3, 16⟩, ⟨8, 4, 18⟩] v ∧ (8 - 0 : Rat) ^ 2 / 10 ^ 6 < v := by
  have h : ((([⟨0, 0, 10⟩, ⟨2, 1, 12⟩, ⟨4, 2, 14⟩, ⟨6, 3, 16⟩, ⟨8, 4, 18⟩] : List Evidence)).map fun p => weight 0 8 p.iteration).sum ≠ 0 := by
    decide +kernel
  refine ⟨_, ⟨_, mul_div_cancel₀ _ h, mul_div_cancel₀ _ h⟩, ?_⟩
  decide +kernel

/-- A single outlier is removed. -/
example : smoothedHistory [] [⟨0, 0, 100⟩, ⟨1, 1, 100⟩, ⟨2, 2, 100⟩, ⟨3, 3, 1000⟩] =
    .ok [⟨0, 0, 100⟩, ⟨1, 1, 100⟩, ⟨2, 2, 100⟩, ⟨3, 3, 892⟩] := by decide +kernel

end Verif
