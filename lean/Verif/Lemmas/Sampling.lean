import Verif.Model.Sampling
import Verif.Spec.Sampling
import Verif.Lemmas.MDObjectsPacked
import Mathlib.Data.List.GetD
import Mathlib.Tactic.FieldSimp
import Mathlib.Tactic.Ring
import Mathlib.Tactic.Linarith
/-! Sampling. -/
namespace Verif
open Spec

/-- Shuffling permutes. -/
def Shuffler.Ok (sh : Shuffler) : Prop := ∀ {α : Type} (r : Nat) (l : List α), (sh r l).Perm l

section
variable {α : Type}

theorem copyUntil_spec {pool : List α} (hp : pool ≠ []) (n : Nat) : ∀ (fuel j : Nat), n ≤ j * pool.length + fuel → (j = 0 ∨ (j - 1) * pool.length < n) →
    ∃ k, copyUntil pool n fuel (List.replicate j pool).flatten = (List.replicate k pool).flatten ∧ n ≤ k * pool.length ∧ (k = 0 ∨ (k - 1) * pool.length < n) := by
  have hm : 0 < pool.length := List.length_pos_iff.2 hp
  intro fuel
  induction fuel with
  | zero => intro j h1 h2; exact ⟨j, rfl, h1, h2⟩
  | succ fuel ih =>
    intro j h1 h2
    unfold copyUntil
    have hl : (List.replicate j pool).flatten.length = j * pool.length := by simp
    split_ifs with h
    · rw [hl] at h
      have he : (List.replicate j pool).flatten ++ pool = (List.replicate (j + 1) pool).flatten := by
        rw [List.replicate_succ', List.flatten_append]; simp
      rw [he]
      apply ih (j + 1)
      · rw [Nat.add_mul]; omega
      · right; simpa using h
    · rw [hl] at h
      exact ⟨j, rfl, by omega, h2⟩

theorem take_copies (pool : List α) (s : Nat) (hs : s ≤ pool.length) : ∀ (q k : Nat), (q < k ∨ q = k ∧ s = 0) →
    (List.replicate k pool).flatten.take (q * pool.length + s) = (List.replicate q pool).flatten ++ pool.take s
  | 0, 0, h => by
    have : s = 0 := by omega
    subst this; simp
  | 0, k + 1, h => by
    rw [List.replicate_succ, List.flatten_cons, Nat.zero_mul, Nat.zero_add, List.take_append_of_le_length hs]
    simp
  | q + 1, 0, h => by omega
  | q + 1, k + 1, h => by
    rw [List.replicate_succ, List.flatten_cons]
    have e : (q + 1) * pool.length + s = pool.length + (q * pool.length + s) := by rw [Nat.add_mul]; omega
    rw [e, List.take_length_add_append, take_copies pool s hs q k (by omega), List.replicate_succ, List.flatten_cons, List.append_assoc]

theorem uniformSample_perm {sh : Shuffler} (hsh : sh.Ok) (r : Nat) {pool : List α} (hp : pool ≠ []) (n : Nat) :
    ∃ l, uniformSample sh r pool n = .ok l ∧ l.Perm ((List.replicate (n / pool.length) pool).flatten ++ pool.take (n % pool.length)) := by
  have hm : 0 < pool.length := List.length_pos_iff.2 hp
  obtain ⟨k, k1, k2, k3⟩ := copyUntil_spec hp n n 0 (by omega) (Or.inl rfl)
  have hk0 : (List.replicate 0 pool).flatten = [] := rfl
  rw [hk0] at k1
  have hdm := Nat.div_add_mod n pool.length
  have hmod := Nat.mod_lt n hm
  have htake : (List.replicate k pool).flatten.take n = (List.replicate (n / pool.length) pool).flatten ++ pool.take (n % pool.length) := by
    have := take_copies pool (n % pool.length) hmod.le (n / pool.length) k (by
      rcases Nat.lt_trichotomy (n / pool.length) k with h | h | h
      · exact Or.inl h
      · refine Or.inr ⟨h, ?_⟩
        rw [← h] at k2
        rw [Nat.mul_comm] at hdm
        omega
      · exfalso
        have h1 : k + 1 ≤ n / pool.length := h
        have h2 := Nat.mul_le_mul_right pool.length h1
        rw [Nat.mul_comm] at hdm
        rw [Nat.add_mul] at h2
        omega)
    rwa [Nat.mul_comm (n / pool.length), hdm] at this
  unfold uniformSample
  rw [if_neg (by simpa using hp)]
  simp only
  rw [k1]
  have hl : (List.replicate k pool).flatten.length = k * pool.length := by simp
  rw [hl]
  refine ⟨_, rfl, (hsh _ _).trans ?_⟩
  rw [← htake]
  split_ifs with h
  · have e1 : k * pool.length - (k * pool.length - n) = n := by omega
    rw [e1, List.take_append_of_le_length (by rw [List.length_take, hl]; omega), List.take_take, Nat.min_self]
  · rw [List.take_of_length_le (by omega)]

variable [DecidableEq α]

theorem count_copies (pool : List α) (x : α) : ∀ q, (List.replicate q pool).flatten.count x = q * pool.count x
  | 0 => by simp
  | q + 1 => by rw [List.replicate_succ, List.flatten_cons, List.count_append, count_copies pool x q, Nat.add_mul]; omega

/-- How often each element of the pool is drawn. -/
theorem uniformSample_count {sh : Shuffler} (hsh : sh.Ok) (r : Nat) {pool : List α} (hp : pool ≠ []) (hnd : pool.Nodup) (n : Nat) :
    ∃ l, uniformSample sh r pool n = .ok l ∧ l.length = n ∧ (∀ x ∈ l, x ∈ pool) ∧
      ∀ x ∈ pool, l.count x = n / pool.length + if x ∈ pool.take (n % pool.length) then 1 else 0 := by
  have hm : 0 < pool.length := List.length_pos_iff.2 hp
  obtain ⟨l, h1, h2⟩ := uniformSample_perm hsh r hp n
  refine ⟨l, h1, ?_, ?_, ?_⟩
  · rw [h2.length_eq, List.length_append, List.length_take]
    have hdm := Nat.div_add_mod n pool.length
    have hmod := Nat.mod_lt n hm
    simp only [List.length_flatten, List.map_replicate, List.sum_replicate, smul_eq_mul]
    rw [Nat.mul_comm] at hdm
    omega
  · intro x hx
    rw [h2.mem_iff, List.mem_append] at hx
    rcases hx with hx | hx
    · obtain ⟨p, hp', hx⟩ := List.mem_flatten.1 hx
      rw [List.eq_of_mem_replicate hp'] at hx
      exact hx
    · exact List.mem_of_mem_take hx
  · intro x hx
    rw [h2.count_eq, List.count_append, count_copies, List.count_eq_one_of_mem hnd hx, Nat.mul_one]
    congr 1
    split_ifs with h
    · exact List.count_eq_one_of_mem (hnd.sublist (List.take_sublist _ _)) h
    · exact List.count_eq_zero_of_not_mem h

theorem uniformSample_balanced {sh : Shuffler} (hsh : sh.Ok) (r : Nat) {pool : List α} (hp : pool ≠ []) (hnd : pool.Nodup) (n : Nat) :
    ∃ l, uniformSample sh r pool n = .ok l ∧ l.length = n ∧ BalancedSample pool l := by
  have hm : 0 < pool.length := List.length_pos_iff.2 hp
  obtain ⟨l, h1, h2, h3, h4⟩ := uniformSample_count hsh r hp hnd n
  refine ⟨l, h1, h2, h3, fun x hx => ?_⟩
  rw [h4 x hx, h2]
  refine ⟨by omega, ?_⟩
  rw [Nat.le_div_iff_mul_le hm]
  have hdm := Nat.div_add_mod n pool.length
  rw [Nat.mul_comm] at hdm
  split_ifs with h
  · have : 0 < n % pool.length := by
      by_contra h0
      have : n % pool.length = 0 := by omega
      rw [this] at h
      simp at h
    rw [Nat.add_mul]; omega
  · rw [Nat.add_zero]; omega

end

theorem ratGrid_eq (lo hi : Rat) {n : Nat} (hn : 2 ≤ n) : ratGrid lo hi n = (List.range n).map fun i : Nat => lo + (hi - lo) * (i : Rat) / ((n : Rat) - 1) := by
  obtain ⟨m, rfl⟩ : ∃ m, n = m + 1 := ⟨n - 1, by omega⟩
  have hm : ((m : Nat) : Rat) ≠ 0 := by exact_mod_cast (by omega : m ≠ 0)
  unfold ratGrid
  rw [List.range_succ, List.map_append, Nat.add_sub_cancel]
  have hc : (((m + 1 : Nat) : Rat) - 1) = (m : Rat) := by push_cast; ring
  congr 1
  · apply List.map_congr_left
    intro i _
    rw [hc]
    ring
  · simp only [List.map_cons, List.map_nil, List.cons.injEq, and_true]
    rw [hc, mul_div_assoc, div_self hm]
    ring

theorem interval_sample {sh : Shuffler} (hsh : sh.Ok) (r : Nat) (lo hi : Rat) (n : Nat) :
    ∃ l, (NumSet.interval lo hi).uniformSample sh r n = .ok l ∧ l.length = n ∧ EvenlySpaced lo hi n l := by
  unfold NumSet.uniformSample
  simp only
  split_ifs with h0 h1
  · subst h0
    exact ⟨[], rfl, rfl, fun h => absurd h (by omega), fun _ => by simp⟩
  · subst h1
    exact ⟨_, rfl, rfl, fun _ => by rw [add_comm], fun h => absurd rfl h⟩
  · have h2 : 2 ≤ n := by omega
    refine ⟨_, rfl, ?_, fun h => absurd h h1, fun _ => ?_⟩
    · rw [(hsh _ _).length_eq, ratGrid_eq lo hi h2]; simp
    · exact (hsh _ _).trans (by rw [ratGrid_eq lo hi h2])

/-- Draws of option numbers. -/
theorem range_sample {sh : Shuffler} (hsh : sh.Ok) (r : Nat) {m : Nat} (hm : 0 < m) (hm2 : m ≤ samplingSizeMax) (n : Nat) :
    ∃ l, uniformSampleRange sh r 0 (wrapPred m) n = .ok l ∧ l.length = n ∧ (∀ x ∈ l, x < m) ∧
      ∀ x < m, l.count x = n / m + if x < n % m then 1 else 0 := by
  have he : wrapPred m = m - 1 := by unfold wrapPred; rw [if_neg (by omega)]
  unfold uniformSampleRange
  rw [he, if_neg (by omega)]
  have e2 : List.range' 0 (m - 1 + 1 - 0) = List.range m := by rw [List.range_eq_range']; congr 1; omega
  rw [e2]
  obtain ⟨l, h1, h2, h3, h4⟩ := uniformSample_count hsh r (pool := List.range m) (by simp; omega) List.nodup_range n
  refine ⟨l, h1, h2, fun x hx => by simpa using h3 x hx, fun x hx => ?_⟩
  rw [h4 x (by simpa using hx), List.length_range, List.take_range]
  simp only [List.mem_range]
  congr 1
  have := Nat.mod_lt n hm
  rw [Nat.min_eq_left this.le]

theorem numSet_sample {sh : Shuffler} (hsh : sh.Ok) (r : Nat) (csf : NumSet) (hne : csf ≠ .finite []) (n : Nat) :
    ∃ c, csf.uniformSample sh r n = .ok c ∧ c.length = n := by
  cases csf with
  | finite xs =>
    have hx : xs ≠ [] := fun h => hne (by rw [h])
    have hm : 0 < xs.length := List.length_pos_iff.2 hx
    obtain ⟨l, h1, h2⟩ := uniformSample_perm hsh r hx n
    refine ⟨l, h1, ?_⟩
    rw [h2.length_eq, List.length_append, List.length_take]
    have hdm := Nat.div_add_mod n xs.length
    have hmod := Nat.mod_lt n hm
    simp only [List.length_flatten, List.map_replicate, List.sum_replicate, smul_eq_mul]
    rw [Nat.mul_comm] at hdm
    omega
  | interval lo hi =>
    obtain ⟨l, h1, h2, -⟩ := interval_sample hsh r lo hi n
    exact ⟨l, h1, h2⟩

section
variable {A B C : Type} [DecidableEq A] [DecidableEq B] [DecidableEq C]

theorem collect_ok {E : Encoder A B C} {d0 d1 d2 : List Nat} {c : List Rat} :
    ∀ is : List Nat, (∀ i ∈ is, d0.getD i 0 < E.ctes.length ∧ d1.getD i 0 < E.dataLayouts.length ∧ d2.getD i 0 < E.newton3s.length) →
      ∃ vs, E.collect d0 d1 d2 c is = .ok vs ∧ vs.map (fun v => some v.cte) = is.map (fun i => E.ctes[d0.getD i 0]?) ∧
        vs.map (fun v => some v.dataLayout) = is.map (fun i => E.dataLayouts[d1.getD i 0]?) ∧
        vs.map (fun v => some v.newton3) = is.map (fun i => E.newton3s[d2.getD i 0]?) ∧
        vs.map (fun v => v.cellSizeFactor) = is.map (fun i => c.getD i 0) ∧ ∀ v ∈ vs, v.interactionType = E.interactionType
  | [], _ => ⟨[], rfl, rfl, rfl, rfl, rfl, by simp⟩
  | i :: is, h => by
    obtain ⟨vs, h1, h2, h3, h4, h5, h6⟩ := collect_ok (E := E) (c := c) is fun j hj => h j (by simp [hj])
    obtain ⟨a, b, e⟩ := h i (by simp)
    have ha := List.getElem?_eq_getElem a
    have hb := List.getElem?_eq_getElem b
    have he := List.getElem?_eq_getElem e
    refine ⟨⟨E.ctes[d0.getD i 0], E.dataLayouts[d1.getD i 0], E.newton3s[d2.getD i 0], c.getD i 0, E.interactionType⟩ :: vs, ?_, ?_, ?_, ?_, ?_, ?_⟩
    · unfold Encoder.collect
      rw [h1]
      unfold Encoder.convertFromTunable
      simp only [List.getD_cons_zero, List.getD_cons_succ]
      rw [ha, hb, he]
      rfl
    · rw [List.map_cons, List.map_cons, h2, ha]
    · rw [List.map_cons, List.map_cons, h3, hb]
    · rw [List.map_cons, List.map_cons, h4, he]
    · rw [List.map_cons, List.map_cons, h5]
    · intro v hv
      rcases List.mem_cons.1 hv with rfl | hv
      · rfl
      · exact h6 v hv

/-- Counting options instead of their numbers. -/
theorem count_options {α : Type} [DecidableEq α] {opts : List α} (hnd : opts.Nodup) {d : List Nat} (hd : ∀ x ∈ d, x < opts.length) {vs : List α}
    (h : vs.map some = (List.range d.length).map fun i => opts[d.getD i 0]?) {j : Nat} (hj : j < opts.length) : vs.count opts[j] = d.count j := by
  have h2 : vs.map some = d.map fun x => opts[x]? := by
    rw [h]
    apply List.ext_getElem
    · simp
    · intro i h1 h2
      simp only [List.getElem_map, List.getElem_range]
      rw [List.getD_eq_getElem _ _ (by simpa using h1)]
  have h3 : (vs.map some).count (some opts[j]) = vs.count opts[j] := List.count_map_of_injective _ _ (Option.some_injective _) _
  rw [← h3, h2]
  clear h h2 h3
  induction d with
  | nil => rfl
  | cons x d ih =>
    have hx := hd x (by simp)
    rw [List.map_cons, List.count_cons, List.count_cons, ih fun y hy => hd y (by simp [hy]), List.getElem?_eq_getElem hx]
    congr 1
    simp only [beq_iff_eq, Option.some.injEq]
    by_cases hxj : x = j
    · subst hxj; simp
    · rw [if_neg hxj, if_neg]
      intro he
      exact hxj ((List.Nodup.getElem_inj_iff hnd).1 he)

end

end Verif
