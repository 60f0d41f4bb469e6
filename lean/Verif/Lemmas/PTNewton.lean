import Verif.Lemmas.PTMethods
import Mathlib.LinearAlgebra.Lagrange

/-! Newton's interpolation with divided differences, and the prediction made from it. -/
namespace Verif.PT
open Spec Polynomial Finset

/-- Divided differences over the rationals. -/
def dd (x y : ℕ → ℚ) : ℕ → ℕ → ℚ
  | 0, j => y j
  | i + 1, j => (dd x y i (j + 1) - dd x y i j) / (x (j + i + 1) - x j)

/-- The node polynomial of the nodes `j` to `j + k - 1`. -/
def nodeP (x : ℕ → ℚ) (j k : ℕ) (t : ℚ) : ℚ := ∏ m ∈ range k, (t - x (j + m))

/-- Newton's polynomial of the points `j` to `j + k - 1`. -/
def newtonP (x y : ℕ → ℚ) (j k : ℕ) (t : ℚ) : ℚ := ∑ i ∈ range k, dd x y i j * nodeP x j i t

theorem nodeP_left (x : ℕ → ℚ) (j k : ℕ) (t : ℚ) : nodeP x j (k + 1) t = (t - x j) * nodeP x (j + 1) k t := by
  unfold nodeP
  rw [prod_range_succ']
  rw [mul_comm]
  congr 1
  apply prod_congr rfl
  intro m _
  congr 2
  omega

theorem nodeP_right (x : ℕ → ℚ) (j k : ℕ) (t : ℚ) : nodeP x j (k + 1) t = nodeP x j k t * (t - x (j + k)) := by
  unfold nodeP
  rw [prod_range_succ]

theorem newtonP_succ (x y : ℕ → ℚ) (j k : ℕ) (t : ℚ) :
    newtonP x y j (k + 1) t = newtonP x y j k t + dd x y k j * nodeP x j k t := by
  unfold newtonP
  rw [sum_range_succ]

theorem newtonP_shift (x y : ℕ → ℚ) (n : ℕ) (hx : ∀ a b, a < b → b < n → x a ≠ x b) (k j : ℕ) (hk : j + k + 1 < n) (t : ℚ) :
    newtonP x y (j + 1) (k + 1) t - newtonP x y j (k + 1) t = (dd x y k (j + 1) - dd x y k j) * nodeP x (j + 1) k t := by
  induction k with
  | zero => simp [newtonP, nodeP, dd]
  | succ k ih =>
    have ih := ih (by omega)
    have hne : x (j + k + 1) - x j ≠ 0 := sub_ne_zero.2 (hx j (j + k + 1) (by omega) (by omega)).symm
    have hdd : dd x y (k + 1) j * (x (j + k + 1) - x j) = dd x y k (j + 1) - dd x y k j := by
      rw [dd]; field_simp
    rw [newtonP_succ x y (j + 1) (k + 1), newtonP_succ x y j (k + 1), nodeP_left x j k, nodeP_right x (j + 1) k]
    have hidx : j + 1 + k = j + k + 1 := by omega
    rw [hidx]
    rw [← hdd] at ih
    linear_combination ih

theorem newtonP_interpolates (x y : ℕ → ℚ) (n : ℕ) (hx : ∀ a b, a < b → b < n → x a ≠ x b) (k j : ℕ) (hk : j + k ≤ n) (m : ℕ) (hm : m < k) :
    newtonP x y j k (x (j + m)) = y (j + m) := by
  induction k generalizing j m with
  | zero => omega
  | succ k ih =>
    by_cases hmk : m < k
    · rw [newtonP_succ, ih j (by omega) m hmk]
      have : nodeP x j k (x (j + m)) = 0 := by
        unfold nodeP
        exact prod_eq_zero (mem_range.2 hmk) (sub_self _)
      rw [this]
      ring
    · obtain rfl : m = k := by omega
      cases m with
      | zero => simp [newtonP, nodeP, dd]
      | succ k =>
        have hs := newtonP_shift x y n hx k j (by omega) (x (j + (k + 1)))
        have h1 := ih (j + 1) (by omega) k (by omega)
        have hidx : j + 1 + k = j + (k + 1) := by omega
        rw [hidx] at h1
        have hne : x (j + k + 1) - x j ≠ 0 := sub_ne_zero.2 (hx j (j + k + 1) (by omega) (by omega)).symm
        have hdd : dd x y (k + 1) j * (x (j + k + 1) - x j) = dd x y k (j + 1) - dd x y k j := by
          rw [dd]; field_simp
        rw [newtonP_succ, nodeP_left]
        rw [h1, ← hdd] at hs
        have hidx2 : j + (k + 1) = j + k + 1 := by omega
        rw [hidx2] at hs ⊢
        linear_combination -hs

/-- The polynomial itself. -/
noncomputable def newtonPoly (x y : ℕ → ℚ) (k : ℕ) : ℚ[X] := ∑ i ∈ range k, C (dd x y i 0) * ∏ m ∈ range i, (X - C (x m))

theorem newtonPoly_eval (x y : ℕ → ℚ) (k : ℕ) (t : ℚ) : (newtonPoly x y k).eval t = newtonP x y 0 k t := by
  unfold newtonPoly newtonP nodeP
  rw [eval_finset_sum]
  apply sum_congr rfl
  intro i _
  rw [eval_mul, eval_C, eval_prod]
  congr 1
  apply prod_congr rfl
  intro m _
  simp

theorem newtonPoly_degree (x y : ℕ → ℚ) (k : ℕ) : (newtonPoly x y k).degree < k := by
  unfold newtonPoly
  rw [← Polynomial.mem_degreeLT]
  refine Submodule.sum_mem _ fun i hi => ?_
  rw [← smul_eq_C_mul]
  refine Submodule.smul_mem _ _ ?_
  rw [Polynomial.mem_degreeLT]
  have h1 : (∏ m ∈ range i, (X - C (x m))).degree = (i : WithBot ℕ) := by
    rw [degree_prod]
    simp
  rw [h1]
  exact_mod_cast mem_range.1 hi

/-- Every polynomial of degree less than `n` through the points is Newton's. -/
theorem interpolation_unique (x y : ℕ → ℚ) (n : ℕ) (hx : ∀ a b, a < b → b < n → x a ≠ x b) (p : ℚ[X]) (hd : p.degree < n)
    (hp : ∀ m < n, p.eval (x m) = y m) (t : ℚ) : p.eval t = newtonP x y 0 n t := by
  have : p = newtonPoly x y n := by
    refine Polynomial.eq_of_degrees_lt_of_eval_index_eq (range n) (v := x) ?_ (by simpa using hd) (by simpa using newtonPoly_degree x y n) ?_
    · intro a ha b hb hab
      have ha' : a < n := by simpa using ha
      have hb' : b < n := by simpa using hb
      rcases lt_trichotomy a b with h | h | h
      · exact absurd hab (hx a b h hb')
      · exact h
      · exact absurd hab.symm (hx b a h ha')
    · intro m hm
      rw [hp m (mem_range.1 hm), newtonPoly_eval]
      have := newtonP_interpolates x y n hx n 0 (by omega) m (mem_range.1 hm)
      rw [Nat.zero_add] at this
      exact this.symm
  rw [this, newtonPoly_eval]

theorem newtonTerm_eq (iteration : Nat) (nodes : List Nat) (hn : ∀ m ∈ nodes, m ≤ iteration) (hit : iteration < 2 ^ 64) (v w : ℚ)
    (h : newtonTerm iteration nodes v = some w) : w = v * (nodes.map fun m : Nat => ((iteration : ℚ) - (m : ℚ))).prod := by
  induction nodes generalizing v with
  | nil =>
    simp only [newtonTerm, Option.some.injEq] at h
    simp [h]
  | cons m nodes ih =>
    unfold newtonTerm at h
    dsimp only at h
    split at h
    · cases h
    · have := ih (fun x hx => hn x (by simp [hx])) _ h
      rw [this, subSize_eq (hn m (by simp)) hit, Nat.cast_sub (hn m (by simp)), List.map_cons, List.prod_cons]
      ring

theorem prod_map_range (g : Nat → ℚ) (i : Nat) : ((List.range i).map g).prod = ∏ m ∈ range i, g m := by
  induction i with
  | zero => simp
  | succ i ih => simp [List.range_succ, prod_range_succ, ih]

theorem newtonEval_close (iteration : Nat) (x : Nat → Nat) (coeffs : List ℚ) (i : Nat) (p0 : Int) (hx : ∀ m, m < i + coeffs.length → x m ≤ iteration)
    (hit : iteration < 2 ^ 64) (p : Int) (h : newtonEval iteration x coeffs i p0 = .ok (some p)) :
    |(p : ℚ) - (p0 + ∑ k ∈ range coeffs.length, coeffs.getD k 0 * nodeP (fun m => x m) 0 (i + k) iteration)| ≤ coeffs.length ∧
    (coeffs ≠ [] → |(p : ℚ) - (p0 + ∑ k ∈ range coeffs.length, coeffs.getD k 0 * nodeP (fun m => x m) 0 (i + k) iteration)| < coeffs.length) := by
  induction coeffs generalizing i p0 with
  | nil =>
    simp only [newtonEval, Outcome.ok.injEq, Option.some.injEq] at h
    subst h
    simp
  | cons c coeffs ih =>
    suffices hs : |(p : ℚ) - (p0 + ∑ k ∈ range (c :: coeffs).length, (c :: coeffs).getD k 0 * nodeP (fun m => x m) 0 (i + k) iteration)|
        < (c :: coeffs).length from ⟨hs.le, fun _ => hs⟩
    unfold newtonEval at h
    split at h
    · cases h
    next v hv =>
      have hv' := newtonTerm_eq iteration ((List.range i).map x) (by
        intro m hm
        obtain ⟨a, ha, rfl⟩ := List.mem_map.1 hm
        exact hx a (by have := List.mem_range.1 ha; omega)) hit c v hv
      split at h
      · cases h
      · cases hw : toLong v with
        | ok w =>
          rw [hw] at h
          simp only [Outcome.bind] at h
          split at h
          · cases h
          · cases hq : toLong ((p0 : ℚ) + v) with
            | ok q =>
              rw [hq] at h
              simp only at h
              have hc := (toLong_close hq).1
              have := (ih (i + 1) q (fun m hm => hx m (by simp only [List.length_cons]; omega)) h).1
              have hvn : v = c * nodeP (fun m => x m) 0 i iteration := by
                rw [hv']
                congr 1
                unfold nodeP
                rw [List.map_map, prod_map_range]
                simp only [Function.comp_def, Nat.zero_add]
              have hsum : ∑ k ∈ range (c :: coeffs).length, (c :: coeffs).getD k 0 * nodeP (fun m => x m) 0 (i + k) iteration =
                  v + ∑ k ∈ range coeffs.length, coeffs.getD k 0 * nodeP (fun m => x m) 0 (i + 1 + k) iteration := by
                rw [List.length_cons, sum_range_succ', hvn, add_comm]
                congr 1
                apply sum_congr rfl
                intro k _
                rw [show i + 1 + k = i + (k + 1) by omega]
                rfl
              rw [hsum, List.length_cons]
              push_cast
              generalize ∑ k ∈ range coeffs.length, coeffs.getD k 0 * nodeP (fun m => x m) 0 (i + 1 + k) iteration = Z at *
              have e1 := abs_lt.1 hc
              have e2 := abs_le.1 this
              rw [abs_lt]
              constructor <;> linarith [e1.1, e1.2, e2.1, e2.2]
            | throws => rw [hq] at h; cases h
            | ub => rw [hq] at h; cases h
            | diverges => rw [hq] at h; cases h
        | throws => rw [hw] at h; cases h
        | ub => rw [hw] at h; cases h
        | diverges => rw [hw] at h; cases h

theorem dd_eq (x : ℕ → ℕ) (y : ℕ → ℚ) (n : ℕ) (hx : ∀ a b, a < b → b < n → x a < x b) (hb : ∀ a, a < n → x a < 2 ^ 64) (i j : ℕ) (hij : i + j < n) :
    dividedDifference x y i j = dd (fun m => x m) y i j := by
  induction i generalizing j with
  | zero => rfl
  | succ i ih =>
    unfold dividedDifference dd
    have hlt := hx j (j + i + 1) (by omega) (by omega)
    rw [ih (j + 1) (by omega), ih j (by omega), subSize_eq hlt.le (hb _ (by omega)), Nat.cast_sub hlt.le]

theorem newton_fresh (n iteration ph : Nat) (params : List Rat) (pre pts : List Evidence) (last : Evidence)
    (hlast : (pre ++ pts).getLast? = some last) (hn : pts.length = n) (hn0 : 0 < n) (hf : Fresh n params last ph)
    (hinc : pts.Pairwise fun e f => e.iteration < f.iteration) (hit : ∀ e ∈ pts, e.iteration ≤ iteration) (hit64 : iteration < 2 ^ 64)
    (r : Result) (hr : newtonPolynomial n iteration ph params (pre ++ pts) = .ok r) (p : ℚ[X]) (hp : Interpolates pts p) :
    (r.value = overflowValue ∨ Predicts n r.value (p.eval (iteration : ℚ))) ∧ r.tooLong = false := by
  unfold newtonPolynomial at hr
  rw [hlast] at hr
  dsimp only at hr
  rw [if_neg hf.not, if_pos (by rw [List.length_append, hn]; omega)] at hr
  have hoff : (pre ++ pts).length - n = pre.length := by rw [List.length_append, hn]; omega
  rw [hoff] at hr
  have hget : ∀ j, (pre ++ pts)[pre.length + j]? = pts[j]? := fun j => by
    rw [List.getElem?_append_right (by omega)]
    congr 1
    omega
  simp only [hget] at hr
  set x : Nat → Nat := fun j => ((pts[j]?).map Evidence.iteration).getD 0 with hxdef
  set y : Nat → ℚ := fun j => (((pts[j]?).map Evidence.value).getD 0 : Int) with hydef
  have hxj : ∀ j (hj : j < n), x j = (pts[j]'(by omega)).iteration := fun j hj => by
    simp [hxdef, List.getElem?_eq_getElem (show j < pts.length by omega)]
  have hyj : ∀ j (hj : j < n), y j = ((pts[j]'(by omega)).value : ℚ) := fun j hj => by
    simp [hydef, List.getElem?_eq_getElem (show j < pts.length by omega)]
  have hxlt : ∀ a b, a < b → b < n → x a < x b := fun a b hab hb => by
    rw [hxj a (by omega), hxj b hb]
    exact List.pairwise_iff_getElem.1 hinc a b (by omega) (by omega) hab
  have hxle : ∀ a, a < n → x a ≤ iteration := fun a ha => by
    rw [hxj a ha]
    exact hit _ (List.getElem_mem _)
  have hx64 : ∀ a, a < n → x a < 2 ^ 64 := fun a ha => lt_of_le_of_lt (hxle a ha) hit64
  rw [if_neg (by
    intro h
    obtain ⟨i, hi, h2⟩ := List.any_eq_true.1 h
    rw [Bool.and_eq_true] at h2
    obtain ⟨j, hj, h3⟩ := List.any_eq_true.1 h2.2
    have hi' := List.mem_range.1 hi
    have hj' := List.mem_range.1 hj
    have h0 := of_decide_eq_true h2.1
    have hs := of_decide_eq_true h3
    have hl := hxlt j (j + i) (by omega) (by omega)
    rw [subSize_eq hl.le (hx64 _ (by omega))] at hs
    omega)] at hr
  have hev : p.eval (iteration : ℚ) = newtonP (fun m => x m) y 0 n iteration := by
    refine interpolation_unique (fun m => x m) y n (fun a b hab hb => ?_) p (by rw [← hn]; exact hp.1) (fun m hm => ?_) iteration
    · have := hxlt a b hab hb
      exact_mod_cast this.ne
    · have := hp.2 _ (List.getElem_mem (show m < pts.length by omega))
      rw [hyj m hm, hxj m hm]
      exact this
  cases he : newtonEval iteration x ((List.range n).map fun i => dividedDifference x y i 0) 0 0 with
  | ok o =>
    rw [he] at hr
    simp only [Outcome.bind, Outcome.ok.injEq] at hr
    subst hr
    refine ⟨?_, rfl⟩
    cases o with
    | none => exact Or.inl rfl
    | some q =>
      right
      have hlen : ((List.range n).map fun i => dividedDifference x y i 0).length = n := by simp
      have hc := (newtonEval_close iteration x _ 0 0 (fun m hm => hxle m (by rw [hlen] at hm; omega)) hit64 q he).2 (by
        intro h0
        rw [h0] at hlen
        simp at hlen
        omega)
      rw [hlen] at hc
      have hsum : ∑ k ∈ range n, ((List.range n).map fun i => dividedDifference x y i 0).getD k 0 * nodeP (fun m => x m) 0 (0 + k) iteration =
          newtonP (fun m => x m) y 0 n iteration := by
        unfold newtonP
        apply sum_congr rfl
        intro k hk
        have hk' := mem_range.1 hk
        rw [List.getD_eq_getElem?_getD, List.getElem?_map, List.getElem?_range hk', Nat.zero_add]
        simp only [Option.map_some, Option.getD_some]
        rw [dd_eq x y n hxlt hx64 k 0 (by omega)]
      rw [hsum] at hc
      rw [hev]
      generalize newtonP (fun m => x m) y 0 n iteration = Z at hc
      have hc' := abs_lt.1 hc
      push_cast at hc'
      change Predicts n (underflowChecked q) Z
      unfold underflowChecked underflowValue
      by_cases hq : q < 0
      · rw [if_pos hq]
        right
        refine ⟨rfl, ?_⟩
        have : ((q : Int) : ℚ) ≤ ((-1 : Int) : ℚ) := by exact_mod_cast (by omega : q ≤ -1)
        push_cast at this
        linarith [hc'.1]
      · rw [if_neg hq]
        left
        refine ⟨by omega, ?_⟩
        rw [abs_lt]
        constructor <;> linarith [hc'.1, hc'.2]
  | throws => rw [he] at hr; cases hr
  | ub => rw [he] at hr; cases hr
  | diverges => rw [he] at hr; cases hr

/-- Reusing the function when there is just the evidence it was made from reads in front of the evidence vector. -/
theorem newton_reuse_ub (n iteration ph : Nat) (params : List Rat) (ev : List Evidence) (last : Evidence) (hlast : ev.getLast? = some last)
    (hn : ev.length = n) (h2 : 2 ≤ n) (hn64 : n < 2 ^ 64) (hp : params.length = n) (hnot : last.tuningPhase + 1 ≠ ph) (v : Int)
    (h0 : toLong (params.getD 0 0) = .ok v) (hv : v ≤ longMax) :
    newtonPolynomial n iteration ph params ev = .ub := by
  obtain ⟨c0, c1, rest, rfl⟩ : ∃ c0 c1 rest, params = c0 :: c1 :: rest := by
    match params, hp with
    | [], h => simp at h; omega
    | [_], h => simp at h; omega
    | a :: b :: r, _ => exact ⟨a, b, r, rfl⟩
  unfold newtonPolynomial
  rw [hlast]
  dsimp only
  have hnp : notInLastPhase last ph = true := decide_eq_true hnot
  rw [if_pos ⟨hnp, hp⟩]
  have h1 : newtonReuse iteration n ev (c0 :: c1 :: rest) 0 0 = .ub := by
    unfold newtonReuse
    simp only [List.range_zero, List.map_nil, List.any_nil]
    rw [if_neg (by simp)]
    simp only [newtonTerm]
    have h0' : toLong c0 = .ok v := h0
    rw [h0']
    simp only [Outcome.bind]
    rw [if_neg (by omega)]
    unfold newtonReuse
    have hidx : (subSize (ev.length - 1) n + 0) % 2 ^ 64 = 2 ^ 64 - 1 := by
      rw [hn]
      unfold subSize
      omega
    have hnone : ev[2 ^ 64 - 1]? = none := List.getElem?_eq_none (by omega)
    have : ((List.range (0 + 1)).map fun j => ev[(subSize (ev.length - 1) n + j) % 2 ^ 64]?) = [none] := by
      have hr : List.range (0 + 1) = [0] := rfl
      rw [hr, List.map_cons, List.map_nil, hidx, hnone]
    dsimp only
    rw [this]
    rfl
  rw [h1]
  rfl

end Verif.PT
