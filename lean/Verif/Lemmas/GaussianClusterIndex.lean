import Verif.Spec.GaussianCluster
import Verif.Lemmas.LogicControl
import Mathlib.Tactic.Linarith
/-! The numbering of discrete vectors. -/
namespace Verif
open Spec

theorem clusterIndex_range : ∀ {dims x : List Int} {k : ℕ}, InBounds dims x → clusterIndex dims x = .ok k → k < (dims.map Int.toNat).prod
  | _, _, k, .nil, h => by
    simp only [clusterIndex, Outcome.ok.injEq] at h
    subst h
    decide
  | _, _, k, .cons (a := r) (b := v) (l₁ := rs) (l₂ := xs) hv hrest, h => by
    unfold clusterIndex at h
    cases hi : clusterIndex rs xs with
    | ok m =>
      rw [hi] at h
      simp only [Outcome.bind] at h
      rw [if_neg (by omega)] at h
      simp only [Outcome.ok.injEq] at h
      have hm := clusterIndex_range hrest hi
      rw [List.map_cons, List.prod_cons]
      obtain ⟨R, rfl⟩ : ∃ R : ℕ, r = R := ⟨r.toNat, by omega⟩
      obtain ⟨V, rfl⟩ : ∃ V : ℕ, v = V := ⟨v.toNat, by omega⟩
      simp only [Int.toNat_natCast] at h ⊢
      have : V < R := by omega
      calc k < m * R + R := by omega
        _ = R * (m + 1) := by ring
        _ ≤ R * _ := Nat.mul_le_mul_left _ hm
    | throws => rw [hi] at h; simp [Outcome.bind] at h
    | ub => rw [hi] at h; simp [Outcome.bind] at h
    | diverges => rw [hi] at h; simp [Outcome.bind] at h

theorem clusterIndex_ok : ∀ {dims x : List Int}, InBounds dims x → ∃ k, clusterIndex dims x = .ok k
  | _, _, .nil => ⟨0, rfl⟩
  | _, _, .cons (a := r) (b := v) (l₁ := rs) (l₂ := xs) hv hrest => by
    obtain ⟨k, hk⟩ := clusterIndex_ok hrest
    refine ⟨k * r.toNat + v.toNat, ?_⟩
    unfold clusterIndex
    rw [hk]
    simp only [Outcome.bind]
    rw [if_neg (by omega)]

theorem clusterIndex_bounds : ∀ {dims x : List Int} {k : ℕ}, x.length = dims.length → clusterIndex dims x = .ok k → InBounds dims x
  | [], [], _, _, _ => .nil
  | r :: rs, v :: xs, k, hl, h => by
    unfold clusterIndex at h
    cases hi : clusterIndex rs xs with
    | ok m =>
      rw [hi] at h
      simp only [Outcome.bind] at h
      split_ifs at h with hc
      exact .cons (by omega) (clusterIndex_bounds (by simpa using hl) hi)
    | throws => rw [hi] at h; simp [Outcome.bind] at h
    | ub => rw [hi] at h; simp [Outcome.bind] at h
    | diverges => rw [hi] at h; simp [Outcome.bind] at h
  | [], _ :: _, _, hl, _ => by simp at hl
  | _ :: _, [], _, hl, _ => by simp at hl

theorem clusterIndex_throws : ∀ {dims x : List Int}, x.length = dims.length → ¬ InBounds dims x → clusterIndex dims x = .throws
  | [], [], _, h => absurd .nil h
  | r :: rs, v :: xs, hl, h => by
    unfold clusterIndex
    by_cases hrest : InBounds rs xs
    · obtain ⟨k, hk⟩ := clusterIndex_ok hrest
      rw [hk]
      simp only [Outcome.bind]
      rw [if_pos]
      by_contra hc
      exact h (.cons (by omega) hrest)
    · rw [clusterIndex_throws (by simpa using hl) hrest]
      rfl
  | [], _ :: _, hl, _ => by simp at hl
  | _ :: _, [], hl, _ => by simp at hl

/-- A vector has a number exactly if it is in bounds. -/
theorem getClusterIndex_iff {dims x : List Int} : (∃ k, getClusterIndex dims x = .ok k) ↔ InBounds dims x := by
  unfold getClusterIndex
  constructor
  · rintro ⟨k, hk⟩
    split_ifs at hk with hl
    exact clusterIndex_bounds (not_not.1 hl) hk
  · intro h
    rw [if_neg (by simp [h.length_eq])]
    exact clusterIndex_ok h

theorem getClusterIndex_throws {dims x : List Int} (h : ¬ InBounds dims x) : getClusterIndex dims x = .throws := by
  unfold getClusterIndex
  split_ifs with hl
  · rfl
  · exact clusterIndex_throws (not_not.1 hl) h

theorem getClusterIndex_eq {dims x : List Int} (h : InBounds dims x) : getClusterIndex dims x = clusterIndex dims x := by
  unfold getClusterIndex
  rw [if_neg (by simp [h.length_eq])]

theorem clusterIndex_cons {r v : Int} {rs xs : List Int} {k : ℕ} (h : InBounds (r :: rs) (v :: xs)) (hk : clusterIndex (r :: rs) (v :: xs) = .ok k) :
    ∃ m, clusterIndex rs xs = .ok m ∧ k = m * r.toNat + v.toNat := by
  obtain ⟨hv, hrest⟩ := List.forall₂_cons.1 h
  obtain ⟨m, hm⟩ := clusterIndex_ok hrest
  refine ⟨m, hm, ?_⟩
  unfold clusterIndex at hk
  rw [hm] at hk
  simp only [Outcome.bind] at hk
  rw [if_neg (by omega)] at hk
  simpa using hk.symm

theorem clusterIndex_inj : ∀ {dims x y : List Int} {k : ℕ}, InBounds dims x → InBounds dims y → clusterIndex dims x = .ok k → clusterIndex dims y = .ok k → x = y
  | [], _, _, _, .nil, .nil, _, _ => rfl
  | r :: rs, v :: xs, w :: ys, k, hx, hy, h1, h2 => by
    obtain ⟨m, hm, e1⟩ := clusterIndex_cons hx h1
    obtain ⟨m', hm', e2⟩ := clusterIndex_cons hy h2
    obtain ⟨hv, hxr⟩ := List.forall₂_cons.1 hx
    obtain ⟨hw, hyr⟩ := List.forall₂_cons.1 hy
    obtain ⟨R, rfl⟩ : ∃ R : ℕ, r = R := ⟨r.toNat, by omega⟩
    obtain ⟨V, rfl⟩ : ∃ V : ℕ, v = V := ⟨v.toNat, by omega⟩
    obtain ⟨W, rfl⟩ : ∃ V : ℕ, w = V := ⟨w.toNat, by omega⟩
    simp only [Int.toNat_natCast] at e1 e2
    have hV : V < R := by omega
    have hW : W < R := by omega
    have hmod : V = W := by
      have a1 : k % R = V := by rw [e1, Nat.mul_comm m R, Nat.mul_add_mod]; exact Nat.mod_eq_of_lt hV
      have a2 : k % R = W := by rw [e2, Nat.mul_comm m' R, Nat.mul_add_mod]; exact Nat.mod_eq_of_lt hW
      omega
    subst hmod
    have : m * R = m' * R := by omega
    have hmm : m = m' := Nat.eq_of_mul_eq_mul_right (by omega) this
    subst hmm
    rw [clusterIndex_inj hxr hyr hm hm']

theorem inc_spec : ∀ {dims x : List Int} {k : ℕ}, InBounds dims x → clusterIndex dims x = .ok k → k + 1 < (dims.map Int.toNat).prod →
    InBounds dims (discreteIncrement dims x) ∧ clusterIndex dims (discreteIncrement dims x) = .ok (k + 1)
  | [], [], k, _, _, h => by simp at h
  | r :: rs, v :: xs, k, hx, h1, hk => by
    obtain ⟨m, hm, e1⟩ := clusterIndex_cons hx h1
    obtain ⟨hv, hxr⟩ := List.forall₂_cons.1 hx
    unfold discreteIncrement
    split_ifs with hc
    · refine ⟨.cons (by omega) hxr, ?_⟩
      unfold clusterIndex
      rw [hm]
      simp only [Outcome.bind]
      rw [if_neg (by omega)]
      congr 1
      omega
    · have hr : r = v + 1 := by omega
      obtain ⟨V, rfl⟩ : ∃ V : ℕ, v = V := ⟨v.toNat, by omega⟩
      have hR : r.toNat = V + 1 := by omega
      rw [List.map_cons, List.prod_cons, hR, e1, hR] at hk
      simp only [Int.toNat_natCast] at hk
      have hmk : m + 1 < (rs.map Int.toNat).prod := by
        by_contra hcon
        have : (V + 1) * (rs.map Int.toNat).prod ≤ (V + 1) * (m + 1) := Nat.mul_le_mul_left _ (by omega)
        have e : m * (V + 1) + V + 1 = (V + 1) * (m + 1) := by ring
        omega
      obtain ⟨i1, i2⟩ := inc_spec hxr hm hmk
      refine ⟨.cons (by omega) i1, ?_⟩
      unfold clusterIndex
      rw [i2]
      simp only [Outcome.bind]
      rw [if_neg (by omega)]
      congr 1
      rw [e1, hR]
      simp only [Int.toNat_natCast, Int.toNat_zero]
      ring

theorem vectors_spec {dims : List Int} : ∀ (n : ℕ) {x : List Int} {k : ℕ}, InBounds dims x → clusterIndex dims x = .ok k → k + n ≤ (dims.map Int.toNat).prod →
    (discreteVectors dims n x).length = n ∧
      ∀ i v, (discreteVectors dims n x)[i]? = some v → InBounds dims v ∧ clusterIndex dims v = .ok (k + i)
  | 0, _, _, _, _, _ => ⟨rfl, by simp [discreteVectors]⟩
  | 1, x, k, hx, hk, _ => by
    refine ⟨rfl, fun i v h => ?_⟩
    cases i with
    | zero => simp only [discreteVectors, List.getElem?_cons_zero, Option.some.injEq] at h; subst h; exact ⟨hx, hk⟩
    | succ i => simp [discreteVectors] at h
  | n + 2, x, k, hx, hk, hn => by
    obtain ⟨i1, i2⟩ := inc_spec hx hk (by omega)
    obtain ⟨l1, l2⟩ := vectors_spec (n + 1) i1 i2 (by omega)
    refine ⟨by rw [discreteVectors, List.length_cons, l1], fun i v h => ?_⟩
    rw [discreteVectors] at h
    cases i with
    | zero => simp only [List.getElem?_cons_zero, Option.some.injEq] at h; subst h; exact ⟨hx, hk⟩
    | succ i =>
      rw [List.getElem?_cons_succ] at h
      obtain ⟨a, b⟩ := l2 i v h
      exact ⟨a, by rw [b]; congr 1; omega⟩

theorem numClusters_spec : ∀ (dims : List Int) (acc : ℕ), numClusters acc dims =
    if ∀ r ∈ dims, 0 < r then .ok (acc * (dims.map Int.toNat).prod) else .throws
  | [], acc => by simp [numClusters]
  | r :: rs, acc => by
    unfold numClusters
    rw [numClusters_spec rs]
    by_cases hr : r ≤ 0
    · rw [if_pos hr, if_neg]
      intro h
      have := h r (by simp)
      omega
    · rw [if_neg hr]
      by_cases hrs : ∀ r ∈ rs, 0 < r
      · rw [if_pos hrs, if_pos]
        · rw [List.map_cons, List.prod_cons, Nat.mul_assoc]
        · intro q hq
          rcases List.mem_cons.1 hq with rfl | hq
          · omega
          · exact hrs q hq
      · rw [if_neg hrs, if_neg]
        exact fun h => hrs fun q hq => h q (by simp [hq])

theorem zero_inBounds : ∀ {dims : List Int}, (∀ r ∈ dims, 0 < r) → InBounds dims (List.replicate dims.length 0) ∧
    clusterIndex dims (List.replicate dims.length 0) = .ok 0
  | [], _ => ⟨.nil, rfl⟩
  | r :: rs, h => by
    obtain ⟨a, b⟩ := zero_inBounds (dims := rs) fun q hq => h q (by simp [hq])
    have hr := h r (by simp)
    refine ⟨.cons ⟨le_refl _, hr⟩ a, ?_⟩
    rw [List.length_cons, List.replicate_succ]
    unfold clusterIndex
    rw [b]
    simp only [Outcome.bind]
    rw [if_neg (by omega)]
    simp

/-- All vectors of given dimensions, by number. -/
def allVectors (dims : List Int) : List (List Int) := discreteVectors dims (dims.map Int.toNat).prod (List.replicate dims.length 0)

theorem allVectors_length {dims : List Int} (h : ∀ r ∈ dims, 0 < r) : (allVectors dims).length = (dims.map Int.toNat).prod := by
  obtain ⟨a, b⟩ := zero_inBounds h
  exact (vectors_spec _ a b (by omega)).1

theorem allVectors_get {dims : List Int} (h : ∀ r ∈ dims, 0 < r) {i : ℕ} {v : List Int} : (allVectors dims)[i]? = some v ↔ getClusterIndex dims v = .ok i := by
  obtain ⟨a, b⟩ := zero_inBounds h
  obtain ⟨l, s⟩ := vectors_spec (dims.map Int.toNat).prod a b (by omega)
  constructor
  · intro hi
    obtain ⟨c1, c2⟩ := s i v hi
    rw [getClusterIndex_eq c1, c2, Nat.zero_add]
  · intro hi
    have hv := getClusterIndex_iff.1 ⟨i, hi⟩
    rw [getClusterIndex_eq hv] at hi
    have hlt := clusterIndex_range hv hi
    obtain ⟨w, hw⟩ : ∃ w, (allVectors dims)[i]? = some w := ⟨_, List.getElem?_eq_getElem (by rw [allVectors_length h]; exact hlt)⟩
    obtain ⟨c1, c2⟩ := s i w hw
    rw [Nat.zero_add] at c2
    rw [hw, clusterIndex_inj hv c1 hi c2]

theorem allVectors_mem {dims : List Int} (h : ∀ r ∈ dims, 0 < r) {v : List Int} : v ∈ allVectors dims ↔ InBounds dims v := by
  rw [List.mem_iff_getElem?, ← getClusterIndex_iff]
  simp only [allVectors_get h]

theorem allVectors_nodup {dims : List Int} (h : ∀ r ∈ dims, 0 < r) : (allVectors dims).Nodup := by
  rw [List.nodup_iff_injective_getElem]
  intro i j hij
  have h1 : (allVectors dims)[i.1]? = some ((allVectors dims)[i.1]) := List.getElem?_eq_getElem i.2
  have h2 : (allVectors dims)[j.1]? = some ((allVectors dims)[j.1]) := List.getElem?_eq_getElem j.2
  simp only at hij
  rw [hij] at h1
  rw [allVectors_get h] at h1 h2
  rw [h1] at h2
  exact Fin.ext (by simpa using h2)

end Verif
