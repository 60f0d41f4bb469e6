import Verif.Lemmas.PTNumbers
import Mathlib.Tactic.LinearCombination
import Mathlib.Tactic.Positivity
import Mathlib.Algebra.BigOperators.Group.List.Lemmas

/-! The prediction methods: line, linear regression, last result. -/
namespace Verif.PT
open Spec

/-- The evidence of the last tuning phase is there, or no function has been stored. -/
def Fresh (len : Nat) (params : List Rat) (last : Evidence) (tuningPhase : Nat) : Prop :=
  last.tuningPhase + 1 = tuningPhase ∨ params.length ≠ len

theorem Fresh.not {len : Nat} {params : List Rat} {last : Evidence} {ph : Nat} (h : Fresh len params last ph) :
    ¬ (notInLastPhase last ph = true ∧ params.length = len) := by
  rintro ⟨h1, h2⟩
  unfold notInLastPhase at h1
  rcases h with h | h
  · exact (of_decide_eq_true h1) h
  · exact h h2

theorem linePrediction_fresh (iteration ph : Nat) (params : List Rat) (pre : List Evidence) (e2 e1 : Evidence)
    (hf : Fresh 2 params e1 ph) (hlt : e2.iteration < e1.iteration) (hit : e1.iteration < 2 ^ 64)
    (hv : longMin ≤ e1.value) (hch : |lineThrough e2 e1 iteration - e1.value| ≤ longMax)
    (hov : lineThrough e2 e1 iteration ≤ longMax - 1) :
    ∃ r, linePrediction iteration ph params (pre ++ [e2, e1]) = .ok r ∧ Predicts 1 r.value (lineThrough e2 e1 iteration) ∧
      r.tooLong = false ∧ r.params = [(e1.value - e2.value : ℚ) / (e1.iteration - e2.iteration), (e1.value : ℚ)] := by
  have hlast : (pre ++ [e2, e1]).getLast? = some e1 := by simp [List.getLast?_append]
  have hlen : (pre ++ [e2, e1]).length = pre.length + 2 := by simp
  have hg1 : (pre ++ [e2, e1])[(pre ++ [e2, e1]).length - 1]? = some e1 := by
    rw [hlen, List.getElem?_append_right (by omega)]
    have : pre.length + 2 - 1 - pre.length = 1 := by omega
    rw [this]; rfl
  have hg2 : (pre ++ [e2, e1])[(pre ++ [e2, e1]).length - 2]? = some e2 := by
    rw [hlen, List.getElem?_append_right (by omega)]
    have : pre.length + 2 - 2 - pre.length = 0 := by omega
    rw [this]; rfl
  have hsub : subSize e1.iteration e2.iteration = e1.iteration - e2.iteration := subSize_eq hlt.le hit
  have hsubQ : ((e1.iteration - e2.iteration : Nat) : ℚ) = e1.iteration - e2.iteration := by
    rw [Nat.cast_sub hlt.le]
  have hd : ((e1.iteration : ℚ) - e2.iteration) ≠ 0 := by
    have : (e2.iteration : ℚ) < e1.iteration := by exact_mod_cast hlt
    linarith
  have hline : lineThrough e2 e1 iteration =
      e1.value + (e1.value - e2.value : ℚ) / (e1.iteration - e2.iteration) * (iteration - e1.iteration) := by
    unfold lineThrough
    field_simp
    ring
  generalize hG : (e1.value - e2.value : ℚ) / (e1.iteration - e2.iteration) = G at *
  have hx : |G * ((iteration : ℚ) - e1.iteration)| ≤ longMax := by
    rw [hline] at hch
    have : (e1.value : ℚ) + G * (iteration - e1.iteration) - e1.value = G * ((iteration : ℚ) - e1.iteration) := by ring
    rwa [this] at hch
  obtain ⟨w, hw⟩ := toLong_ok hx
  have hw' := toLong_close hw
  unfold linePrediction
  rw [hlast]
  dsimp only
  rw [if_neg hf.not, if_pos (by rw [hlen]; omega), hg1, hg2]
  dsimp only
  rw [if_neg (by rw [hsub]; omega), hsub, hsubQ]
  have hcast : ((e1.value - e2.value : Int) : ℚ) = e1.value - e2.value := by push_cast; ring
  rw [hcast, hG, safeMulD_eq hx, hw]
  refine ⟨_, rfl, ?_, rfl, rfl⟩
  rw [hline]
  exact safeAdd_predicts _ _ _ hv hw'.2.1 hw'.1 (by rw [hline] at hov; exact hov)

theorem lastResult_fresh (ph : Nat) (params : List Rat) (pre : List Evidence) (e : Evidence) (hf : Fresh 1 params e ph) :
    lastResult ph params (pre ++ [e]) = .ok ⟨e.value, [(e.value : ℚ)], false⟩ := by
  unfold lastResult
  rw [List.getLast?_concat]
  dsimp only
  rw [if_neg hf.not, if_pos (by simp)]

/-- Sums over measurements. -/
def sumOf (pts : List Evidence) (f : Evidence → ℚ) : ℚ := (pts.map f).sum

theorem sumOf_cons (e : Evidence) (pts : List Evidence) (f : Evidence → ℚ) : sumOf (e :: pts) f = f e + sumOf pts f := by
  simp [sumOf]

/-- `Σ (y - a - b x)²` expanded around another line. -/
theorem squaredError_expand (pts : List Evidence) (a b a' b' : ℚ) :
    squaredError pts a' b' = squaredError pts a b + 2 * (a - a') * sumOf pts (fun e => e.value - (a + b * e.iteration)) +
      2 * (b - b') * sumOf pts (fun e => e.iteration * (e.value - (a + b * e.iteration))) +
      sumOf pts (fun e => ((a - a') + (b - b') * e.iteration) ^ 2) := by
  induction pts with
  | nil => simp [squaredError, sumOf]
  | cons e pts ih =>
    simp only [sumOf_cons]
    have h1 : squaredError (e :: pts) a' b' = ((e.value : ℚ) - (a' + b' * e.iteration)) ^ 2 + squaredError pts a' b' := by
      simp [squaredError]
    have h2 : squaredError (e :: pts) a b = ((e.value : ℚ) - (a + b * e.iteration)) ^ 2 + squaredError pts a b := by
      simp [squaredError]
    rw [h1, h2, ih]
    ring

theorem sumOf_nonneg (pts : List Evidence) (f : Evidence → ℚ) (h : ∀ e, 0 ≤ f e) : 0 ≤ sumOf pts f := by
  induction pts with
  | nil => simp [sumOf]
  | cons e pts ih => rw [sumOf_cons]; exact add_nonneg (h e) ih

theorem leastSquares_of_normal (pts : List Evidence) (a b : ℚ) (h1 : sumOf pts (fun e => e.value - (a + b * e.iteration)) = 0)
    (h2 : sumOf pts (fun e => e.iteration * (e.value - (a + b * e.iteration))) = 0) : IsLeastSquares pts a b := by
  intro a' b'
  rw [squaredError_expand pts a b a' b', h1, h2]
  have := sumOf_nonneg pts (fun e => ((a - a') + (b - b') * e.iteration) ^ 2) (fun e => sq_nonneg _)
  linarith

theorem normal_sums (pts : List Evidence) (a b : ℚ) :
    sumOf pts (fun e => e.value - (a + b * e.iteration)) =
      sumOf pts (fun e => e.value) - a * pts.length - b * sumOf pts (fun e => e.iteration) ∧
    sumOf pts (fun e => e.iteration * (e.value - (a + b * e.iteration))) =
      sumOf pts (fun e => e.iteration * e.value) - a * sumOf pts (fun e => e.iteration) -
        b * sumOf pts (fun e => e.iteration * e.iteration) := by
  induction pts with
  | nil => simp [sumOf]
  | cons e pts ih =>
    simp only [sumOf_cons, List.length_cons]
    push_cast
    constructor
    · linear_combination ih.1
    · linear_combination ih.2

/-- What the loop of the regression computes when nothing overflows. -/
theorem regressionSums_eq (pts : List Evidence) (m : Int) (s q : Nat) (t : Int) (hm : 0 ≤ m) (hv : ∀ e ∈ pts, 0 ≤ e.value)
    (hb : m + (pts.map fun e => (e.iteration : Int) * e.value).sum < longMax) :
    regressionSums pts m s q t = some (m + (pts.map fun e => (e.iteration : Int) * e.value).sum,
      s + (pts.map fun e => e.iteration).sum, q + (pts.map fun e => e.iteration * e.iteration).sum, t + (pts.map fun e => e.value).sum) := by
  induction pts generalizing m s q t with
  | nil => simp [regressionSums]
  | cons e pts ih =>
    have he : 0 ≤ (e.iteration : Int) * e.value := mul_nonneg (by omega) (hv e (by simp))
    have hrest : 0 ≤ (pts.map fun e => (e.iteration : Int) * e.value).sum := by
      apply List.sum_nonneg
      intro x hx
      obtain ⟨e', he', rfl⟩ := List.mem_map.1 hx
      exact mul_nonneg (by omega) (hv e' (by simp [he']))
    rw [List.map_cons, List.sum_cons] at hb
    have hmin : longMin ≤ 0 := by decide
    have h1 : safeMul e.iteration e.value = e.iteration * e.value := if_pos ⟨by omega, by omega⟩
    have h2 : safeAdd m (e.iteration * e.value) longMin longMax = m + e.iteration * e.value := if_pos ⟨by omega, by omega⟩
    unfold regressionSums
    rw [h1, h2]
    dsimp only
    rw [if_neg (by omega), ih _ _ _ _ (by omega) (fun x hx => hv x (by simp [hx])) (by omega)]
    simp only [List.map_cons, List.sum_cons]
    congr 2
    · ring
    · congr 1
      · ring
      · congr 1
        · ring
        · ring

theorem cast_sums (pts : List Evidence) :
    (((pts.map fun e => (e.iteration : Int) * e.value).sum : Int) : ℚ) = sumOf pts (fun e => e.iteration * e.value) ∧
    (((pts.map fun e => e.iteration).sum : Nat) : ℚ) = sumOf pts (fun e => e.iteration) ∧
    (((pts.map fun e => e.iteration * e.iteration).sum : Nat) : ℚ) = sumOf pts (fun e => e.iteration * e.iteration) ∧
    (((pts.map fun e => e.value).sum : Int) : ℚ) = sumOf pts (fun e => e.value) := by
  induction pts with
  | nil => simp [sumOf]
  | cons e pts ih =>
    simp only [sumOf_cons, List.map_cons, List.sum_cons]
    push_cast
    rw [← ih.1, ← ih.2.1, ← ih.2.2.1, ← ih.2.2.2]
    push_cast
    exact ⟨rfl, rfl, rfl, rfl⟩

/-- The variance of at least two different iterations is positive. -/
theorem variance_pos (pts : List Evidence) (hne : ∃ e ∈ pts, ∃ f ∈ pts, e.iteration ≠ f.iteration) :
    sumOf pts (fun e => e.iteration * e.iteration) * pts.length - sumOf pts (fun e => e.iteration) ^ 2 ≠ 0 := by
  intro h0
  have hlen : (0 : ℚ) < pts.length := by
    obtain ⟨e, he, -⟩ := hne
    exact_mod_cast List.length_pos_of_mem he
  set μ := sumOf pts (fun e => e.iteration) / pts.length with hμ
  have hexp : ∀ (l : List Evidence), sumOf l (fun e => ((e.iteration : ℚ) - μ) ^ 2) =
      sumOf l (fun e => e.iteration * e.iteration) - 2 * μ * sumOf l (fun e => e.iteration) + l.length * μ ^ 2 := by
    intro l
    induction l with
    | nil => simp [sumOf]
    | cons e l ih =>
      simp only [sumOf_cons, List.length_cons, ih]
      push_cast
      ring
  have hz : sumOf pts (fun e => ((e.iteration : ℚ) - μ) ^ 2) = 0 := by
    rw [hexp]
    have : μ * pts.length = sumOf pts (fun e => e.iteration) := by rw [hμ]; field_simp
    have h3 : (pts.length : ℚ) * (sumOf pts (fun e => e.iteration * e.iteration) - 2 * μ * sumOf pts (fun e => e.iteration) + pts.length * μ ^ 2) = 0 := by
      rw [← this] at h0 ⊢
      linear_combination h0
    exact (mul_eq_zero.1 h3).resolve_left hlen.ne'
  have hall : ∀ e ∈ pts, (e.iteration : ℚ) = μ := by
    clear_value μ
    clear hexp h0 hne hlen hμ
    induction pts with
    | nil => simp
    | cons e pts ih =>
      rw [sumOf_cons] at hz
      have h1 := sumOf_nonneg pts (fun e => ((e.iteration : ℚ) - μ) ^ 2) (fun e => sq_nonneg _)
      have h2 := sq_nonneg ((e.iteration : ℚ) - μ)
      intro x hx
      rcases List.mem_cons.1 hx with rfl | hx
      · have : ((x.iteration : ℚ) - μ) ^ 2 = 0 := by linarith
        have := pow_eq_zero_iff (two_ne_zero) |>.1 this
        linarith
      · exact ih (by linarith) x hx
  obtain ⟨e, he, f, hf, hef⟩ := hne
  apply hef
  have : (e.iteration : ℚ) = f.iteration := by rw [hall e he, hall f hf]
  exact_mod_cast this

/-- The least-squares prediction, if the mean of the measured times is a whole number. -/
theorem linearRegression_fresh (n iteration ph : Nat) (params : List Rat) (pre pts : List Evidence) (last : Evidence)
    (hlast : (pre ++ pts).getLast? = some last) (hn : pts.length = n) (hf : Fresh 2 params last ph)
    (hne : ∃ e ∈ pts, ∃ f ∈ pts, e.iteration ≠ f.iteration) (hv : ∀ e ∈ pts, 0 ≤ e.value)
    (hb : (pts.map fun e : Evidence => (e.iteration : Int) * e.value).sum < longMax)
    (hdiv : (n : Int) ∣ (pts.map fun e : Evidence => e.value).sum)
    (hrange : ∀ a b, IsLeastSquares pts a b → |a + b * iteration| ≤ longMax - 1 ∧
      |a + b * iteration - ((pts.map fun e : Evidence => e.value).sum.tdiv n : Int)| ≤ longMax) :
    ∃ a b, IsLeastSquares pts a b ∧ ∃ r, linearRegression n iteration ph params (pre ++ pts) = .ok r ∧
      Predicts 1 r.value (a + b * iteration) ∧ r.tooLong = false ∧ r.params = [b, a] := by
  obtain ⟨c1, c2, c3, c4⟩ := cast_sums pts
  have hvar := variance_pos pts hne
  have hnpos : 0 < n := by
    obtain ⟨e, he, -⟩ := hne
    rw [← hn]
    exact List.length_pos_of_mem he
  have hnQ : (n : ℚ) ≠ 0 := by exact_mod_cast hnpos.ne'
  obtain ⟨k, hk⟩ := hdiv
  have htd : (pts.map fun e : Evidence => e.value).sum.tdiv n = k := by
    rw [hk]
    exact Int.mul_tdiv_cancel_left k (by omega)
  have hkQ : sumOf pts (fun e => e.value) = n * k := by
    rw [← c4, hk]; push_cast; ring
  rw [hn] at hvar
  set M := sumOf pts (fun e => e.iteration * e.value)
  set S := sumOf pts (fun e => e.iteration)
  set Q := sumOf pts (fun e => e.iteration * e.iteration)
  have hden : Q - S * (S / n) ≠ 0 := by
    intro h
    apply hvar
    have : (Q - S * (S / n)) * n = Q * n - S ^ 2 := by field_simp
    rw [← this, h, zero_mul]
  set b := (M - S * k) / (Q - S * (S / n)) with hbdef
  set a := (k : ℚ) - b * (S / n) with hadef
  have hbd : b * (Q - S * (S / n)) = M - S * k := by rw [hbdef]; field_simp
  have hls : IsLeastSquares pts a b := by
    apply leastSquares_of_normal
    · rw [(normal_sums pts a b).1, hkQ, hn, hadef]
      change (n : ℚ) * k - (k - b * (S / n)) * n - b * S = 0
      field_simp
      ring
    · rw [(normal_sums pts a b).2, hadef]
      change M - (k - b * (S / n)) * S - b * Q = 0
      linear_combination -hbd
  obtain ⟨r1, r2⟩ := hrange a b hls
  rw [htd] at r2
  have hval : a + b * iteration = k + b * ((iteration : ℚ) - S / n) := by rw [hadef]; ring
  have hx : |b * ((iteration : ℚ) - S / n)| ≤ longMax := by
    have : a + b * iteration - k = b * ((iteration : ℚ) - S / n) := by rw [hval]; ring
    rwa [this] at r2
  obtain ⟨w, hw⟩ := toLong_ok hx
  have hw' := toLong_close hw
  refine ⟨a, b, hls, ?_⟩
  unfold linearRegression
  rw [hlast]
  dsimp only
  have hdrop : (pre ++ pts).drop ((pre ++ pts).length - n) = pts := by
    rw [List.length_append, hn, Nat.add_sub_cancel, List.drop_left]
  rw [if_neg hf.not, if_pos (by rw [List.length_append, hn]; omega), hdrop,
    regressionSums_eq pts 0 0 0 0 le_rfl hv (by rw [zero_add]; exact hb)]
  dsimp only
  rw [if_neg (by omega)]
  simp only [zero_add]
  rw [htd]
  have hnum : (((pts.map fun e : Evidence => (e.iteration : Int) * e.value).sum - ((pts.map fun e : Evidence => e.iteration).sum : Nat) * k : Int) : ℚ) = M - S * k := by
    rw [Int.cast_sub, Int.cast_mul, Int.cast_natCast, c1, c2]
  rw [hnum, c2, c3, if_neg hden, ← hbdef, safeMulD_eq hx, hw]
  refine ⟨_, rfl, ?_, rfl, rfl⟩
  rw [hval]
  have hkmin : longMin ≤ k := by
    have h0 : 0 ≤ (pts.map fun e : Evidence => e.value).sum := by
      apply List.sum_nonneg
      intro x hx
      obtain ⟨e, he, rfl⟩ := List.mem_map.1 hx
      exact hv e he
    have : 0 ≤ k := by
      rw [hk] at h0
      by_contra hneg
      have : (n : Int) * k < 0 := mul_neg_of_pos_of_neg (by omega) (by omega)
      omega
    have h00 : longMin ≤ 0 := by decide
    omega
  have hsym : safeAdd w k underflowValue overflowValue = safeAdd k w underflowValue overflowValue := by
    unfold safeAdd
    simp only [add_comm w k, and_comm (a := w < 0)]
  change Predicts 1 (underflowChecked (safeAdd w k underflowValue overflowValue)) _
  rw [hsym]
  refine safeAdd_predicts _ _ _ hkmin hw'.2.1 hw'.1 ?_
  rw [← hval]
  exact (abs_le.1 r1).2

end Verif.PT
