import Verif.Model.FeatureVectorEncoder
import Mathlib.Data.List.Nodup
import Mathlib.Tactic.NormNum
/-!
# C44 — feature vectors survive encoding
-/
namespace Verif

variable {A B C : Type} [DecidableEq A] [DecidableEq B] [DecidableEq C]

/-- The feature vector uses allowed options only. -/
structure Spec.Allowed (E : Encoder A B C) (v : FeatureVector A B C) : Prop where
  cte : v.cte ∈ E.ctes
  dataLayout : v.dataLayout ∈ E.dataLayouts
  newton3 : v.newton3 ∈ E.newton3s
  interactionType : v.interactionType = E.interactionType

/-- Exactly one entry equals 1, and it is the one at position `d`. -/
def Spec.HotAt (xs : List Rat) (d : Nat) : Prop := ∀ i, xs[i]? = some 1 ↔ i = d

/-- A one-hot vector: one entry is 1, all others are 0. -/
def Spec.OneHot (xs : List Rat) : Prop := ∃ d, d < xs.length ∧ ∀ i < xs.length, xs.getD i 0 = if i = d then 1 else 0

open Spec

theorem getIndex_mem {α : Type} [DecidableEq α] {l : List α} {a : α} (h : a ∈ l) : ∃ i, getIndex l a = .ok i ∧ l[i]? = some a := by
  induction l with
  | nil => cases h
  | cons x l ih =>
    unfold getIndex
    by_cases e : x = a
    · rw [if_pos e]; exact ⟨0, rfl, by rw [e]; rfl⟩
    · rw [if_neg e]
      obtain ⟨i, h1, h2⟩ := ih ((List.mem_cons.1 h).resolve_left (Ne.symm e))
      rw [h1]
      exact ⟨i + 1, rfl, h2⟩

theorem getIndex_not_mem {α : Type} [DecidableEq α] {l : List α} {a : α} (h : a ∉ l) : getIndex l a = .throws := by
  induction l with
  | nil => rfl
  | cons x l ih =>
    unfold getIndex
    rw [if_neg (fun e : x = a => h (by rw [e]; exact List.mem_cons_self ..)), ih fun hm => h (List.mem_cons_of_mem _ hm)]
    rfl

theorem scanBlock_some (xs : List Rat) : ∀ i d, (scanBlock xs i (some d) = .ok (some d) ∧ ∀ j : Nat, xs[j]? ≠ some 1) ∨
    (scanBlock xs i (some d) = .throws ∧ ∃ j : Nat, xs[j]? = some 1) := by
  induction xs with
  | nil => intro i d; left; exact ⟨rfl, by simp⟩
  | cons x xs ih =>
    intro i d
    unfold scanBlock
    by_cases e : x = 1
    · right
      rw [if_pos e]
      exact ⟨rfl, 0, by rw [e]; rfl⟩
    · rw [if_neg e]
      rcases ih (i + 1) d with ⟨h1, h2⟩ | ⟨h1, j, h2⟩
      · left
        refine ⟨h1, fun j => ?_⟩
        cases j with
        | zero => simpa using e
        | succ j => exact h2 j
      · right; exact ⟨h1, j + 1, h2⟩

theorem scanBlock_none (xs : List Rat) : ∀ i, (scanBlock xs i none = .ok none ∧ ∀ j : Nat, xs[j]? ≠ some 1) ∨
    (∃ d, scanBlock xs i none = .ok (some (i + d)) ∧ HotAt xs d) ∨ (scanBlock xs i none = .throws ∧ ∃ j k : Nat, j ≠ k ∧ xs[j]? = some 1 ∧ xs[k]? = some 1) := by
  induction xs with
  | nil => intro i; left; exact ⟨rfl, by simp⟩
  | cons x xs ih =>
    intro i
    unfold scanBlock
    by_cases e : x = 1
    · rw [if_pos e]
      right
      simp only
      rcases scanBlock_some xs (i + 1) i with ⟨h1, h2⟩ | ⟨h1, j, h2⟩
      · left
        refine ⟨0, h1, fun j => ?_⟩
        cases j with
        | zero => simp [e]
        | succ j => simpa using h2 j
      · right; exact ⟨h1, 0, j + 1, by omega, by simp [e], by simpa using h2⟩
    · rw [if_neg e]
      rcases ih (i + 1) with ⟨h1, h2⟩ | ⟨d, h1, h2⟩ | ⟨h1, j, k, hjk, h2, h3⟩
      · left
        refine ⟨h1, fun j => ?_⟩
        cases j with
        | zero => simpa using e
        | succ j => exact h2 j
      · right; left
        refine ⟨d + 1, by rw [h1, Nat.add_assoc, Nat.add_comm 1], fun j => ?_⟩
        cases j with
        | zero => simp [e]
        | succ j => simpa using h2 j
      · right; right
        exact ⟨h1, j + 1, k + 1, by omega, by simpa using h2, by simpa using h3⟩

/-- Decoding one dimension: it gives the position of the only 1, or throws if there is none or more than one. -/
theorem decodeBlock_spec (xs : List Rat) : (∃ d, decodeBlock xs = .ok d ∧ HotAt xs d) ∨ (decodeBlock xs = .throws ∧ ∀ d, ¬ HotAt xs d) := by
  unfold decodeBlock
  rcases scanBlock_none xs 0 with ⟨h1, h2⟩ | ⟨d, h1, h2⟩ | ⟨h1, j, k, hjk, h2, h3⟩
  · right
    rw [h1]
    exact ⟨rfl, fun d hd => h2 d ((hd d).2 rfl)⟩
  · left
    rw [h1]
    exact ⟨d, by simp [Outcome.bind], h2⟩
  · right
    rw [h1]
    exact ⟨rfl, fun d hd => hjk (((hd j).1 h2).trans ((hd k).1 h3).symm)⟩

theorem decodeBlock_of_hot {xs : List Rat} {d : Nat} (h : HotAt xs d) : decodeBlock xs = .ok d := by
  rcases decodeBlock_spec xs with ⟨d', h1, h2⟩ | ⟨-, h2⟩
  · rw [h1, (h d').1 ((h2 d').2 rfl)]
  · exact absurd h (h2 d)

theorem oneHotBlock_hot {n d : Nat} (h : d < n) : HotAt (oneHotBlock n d) d := by
  intro i
  unfold oneHotBlock
  rw [List.getElem?_map]
  by_cases hi : i < n
  · rw [List.getElem?_range hi, Option.map_some]
    by_cases e : i = d
    · simp [e]
    · simp [e]
  · rw [List.getElem?_eq_none (by simpa using hi)]
    simp; omega

theorem oneHotBlock_length (n d : Nat) : (oneHotBlock n d).length = n := by simp [oneHotBlock]

theorem getIndex_lt {α : Type} {l : List α} {a : α} {i : Nat} (h : l[i]? = some a) : i < l.length := (List.getElem?_eq_some_iff.1 h).1

/-- C44, first part: encoding an allowed feature vector and decoding the result gives the feature vector back. -/
theorem C44_roundtrip (E : Encoder A B C) (v : FeatureVector A B C) (hv : Allowed E v) :
    ∃ xs, E.oneHotEncode v = .ok xs ∧ E.oneHotDecode xs = .ok v := by
  obtain ⟨a, a1, a2⟩ := getIndex_mem hv.cte
  obtain ⟨b, b1, b2⟩ := getIndex_mem hv.dataLayout
  obtain ⟨c, c1, c2⟩ := getIndex_mem hv.newton3
  refine ⟨_, by unfold Encoder.oneHotEncode Encoder.convertToTunable; rw [a1, b1, c1]; rfl, ?_⟩
  simp only [List.getD_cons_zero, List.getD_cons_succ]
  unfold Encoder.oneHotDecode
  simp only
  rw [if_neg (by simp [oneHotBlock_length]; omega)]
  have e1 : (oneHotBlock E.ctes.length a ++ oneHotBlock E.dataLayouts.length b ++ oneHotBlock E.newton3s.length c ++ [v.cellSizeFactor]).take E.ctes.length =
      oneHotBlock E.ctes.length a := by
    rw [List.append_assoc, List.append_assoc, List.take_append_of_le_length (by rw [oneHotBlock_length]), List.take_of_length_le (by rw [oneHotBlock_length])]
  have e2 : ((oneHotBlock E.ctes.length a ++ oneHotBlock E.dataLayouts.length b ++ oneHotBlock E.newton3s.length c ++ [v.cellSizeFactor]).drop
      E.ctes.length).take E.dataLayouts.length = oneHotBlock E.dataLayouts.length b := by
    rw [List.append_assoc, List.append_assoc, List.drop_left' (by rw [oneHotBlock_length]), List.take_left' (by rw [oneHotBlock_length])]
  have e3 : ((oneHotBlock E.ctes.length a ++ oneHotBlock E.dataLayouts.length b ++ oneHotBlock E.newton3s.length c ++ [v.cellSizeFactor]).drop
      (E.ctes.length + E.dataLayouts.length)).take E.newton3s.length = oneHotBlock E.newton3s.length c := by
    rw [List.append_assoc, List.drop_left' (by simp [oneHotBlock_length]), List.take_left' (by rw [oneHotBlock_length])]
  have e4 : (oneHotBlock E.ctes.length a ++ oneHotBlock E.dataLayouts.length b ++ oneHotBlock E.newton3s.length c ++ [v.cellSizeFactor]).getD
      (E.ctes.length + E.dataLayouts.length + E.newton3s.length) 0 = v.cellSizeFactor := by
    rw [List.getD_eq_getElem?_getD, List.getElem?_append_right (by simp [oneHotBlock_length, Nat.add_assoc])]
    simp [oneHotBlock_length, Nat.add_assoc]
  rw [e1, e2, e3, e4, decodeBlock_of_hot (oneHotBlock_hot (getIndex_lt a2)), decodeBlock_of_hot (oneHotBlock_hot (getIndex_lt b2)),
    decodeBlock_of_hot (oneHotBlock_hot (getIndex_lt c2))]
  simp only [Outcome.bind, Encoder.convertFromTunable, List.getD_cons_zero, List.getD_cons_succ, a2, b2, c2]
  rw [← hv.interactionType]

/-- Feature vectors with an option that is not allowed are rejected by encoding. -/
theorem C44_encode_rejects (E : Encoder A B C) (v : FeatureVector A B C) (h : v.cte ∉ E.ctes ∨ v.dataLayout ∉ E.dataLayouts ∨ v.newton3 ∉ E.newton3s) :
    E.oneHotEncode v = .throws := by
  unfold Encoder.oneHotEncode Encoder.convertToTunable
  by_cases h1 : v.cte ∈ E.ctes
  · obtain ⟨a, a1, -⟩ := getIndex_mem h1
    by_cases h2 : v.dataLayout ∈ E.dataLayouts
    · obtain ⟨b, b1, -⟩ := getIndex_mem h2
      have h3 : v.newton3 ∉ E.newton3s := by tauto
      rw [a1, b1, getIndex_not_mem h3]; rfl
    · rw [a1, getIndex_not_mem h2]; rfl
  · rw [getIndex_not_mem h1]; rfl

/-- C44, second part (partial): decoding accepts a vector exactly if it has the right length and in each of the three discrete dimensions exactly one entry equals
1; it then returns the options at these positions and the last entry; every other vector is rejected by an exception, never undefined behaviour. Missing: the
other entries are not required to be 0, see `C44_violated`. -/
theorem C44_decode_partial (E : Encoder A B C) (vec : List Rat) :
    (∃ a b c : Nat, ∃ x y z, vec.length = E.ctes.length + E.dataLayouts.length + E.newton3s.length + 1 ∧
        HotAt (vec.take E.ctes.length) a ∧ HotAt ((vec.drop E.ctes.length).take E.dataLayouts.length) b ∧
        HotAt ((vec.drop (E.ctes.length + E.dataLayouts.length)).take E.newton3s.length) c ∧
        E.ctes[a]? = some x ∧ E.dataLayouts[b]? = some y ∧ E.newton3s[c]? = some z ∧
        E.oneHotDecode vec = .ok ⟨x, y, z, vec.getD (E.ctes.length + E.dataLayouts.length + E.newton3s.length) 0, E.interactionType⟩) ∨
    ((vec.length ≠ E.ctes.length + E.dataLayouts.length + E.newton3s.length + 1 ∨ (∀ a, ¬ HotAt (vec.take E.ctes.length) a) ∨
        (∀ b, ¬ HotAt ((vec.drop E.ctes.length).take E.dataLayouts.length) b) ∨
        (∀ c, ¬ HotAt ((vec.drop (E.ctes.length + E.dataLayouts.length)).take E.newton3s.length) c)) ∧ E.oneHotDecode vec = .throws) := by
  unfold Encoder.oneHotDecode
  simp only
  by_cases hl : vec.length = E.ctes.length + E.dataLayouts.length + E.newton3s.length + 1
  · rw [if_neg (by simpa using hl)]
    rcases decodeBlock_spec (vec.take E.ctes.length) with ⟨a, a1, a2⟩ | ⟨a1, a2⟩
    · rcases decodeBlock_spec ((vec.drop E.ctes.length).take E.dataLayouts.length) with ⟨b, b1, b2⟩ | ⟨b1, b2⟩
      · rcases decodeBlock_spec ((vec.drop (E.ctes.length + E.dataLayouts.length)).take E.newton3s.length) with ⟨c, c1, c2⟩ | ⟨c1, c2⟩
        · left
          have la := getIndex_lt ((a2 a).2 rfl)
          have lb := getIndex_lt ((b2 b).2 rfl)
          have lc := getIndex_lt ((c2 c).2 rfl)
          rw [List.length_take] at la lb lc
          refine ⟨a, b, c, E.ctes[a]'(by omega), E.dataLayouts[b]'(by omega), E.newton3s[c]'(by omega), hl, a2, b2, c2, List.getElem?_eq_getElem _,
            List.getElem?_eq_getElem _, List.getElem?_eq_getElem _, ?_⟩
          rw [a1, b1, c1]
          simp only [Outcome.bind, Encoder.convertFromTunable, List.getD_cons_zero, List.getD_cons_succ]
          rw [List.getElem?_eq_getElem (show a < E.ctes.length by omega), List.getElem?_eq_getElem (show b < E.dataLayouts.length by omega),
            List.getElem?_eq_getElem (show c < E.newton3s.length by omega)]
        · right
          refine ⟨.inr (.inr (.inr c2)), ?_⟩
          rw [a1, b1, c1]; rfl
      · right
        refine ⟨.inr (.inr (.inl b2)), ?_⟩
        rw [a1, b1]; rfl
    · right
      refine ⟨.inr (.inl a2), ?_⟩
      rw [a1]; rfl
  · right
    rw [if_pos hl]
    exact ⟨.inl hl, rfl⟩

/-- C44 fails: a vector whose first dimension is (1/2, 1) is not one-hot, but is decoded. -/
theorem C44_violated : ∃ (E : Encoder Nat Nat Nat) (vec : List Rat) (v : FeatureVector Nat Nat Nat),
    ¬ OneHot (vec.take E.ctes.length) ∧ E.oneHotDecode vec = .ok v := by
  refine ⟨⟨[1, 2], [3], [4], 1⟩, [1/2, 1, 1, 1, 5], ⟨2, 3, 4, 5, 1⟩, ?_, by decide +kernel⟩
  rintro ⟨d, hd, h⟩
  have h0 := h 0 (by simp)
  simp only [List.length_cons, List.length_nil, List.take_succ_cons, List.getD_cons_zero] at h0
  by_cases e : 0 = d
  · rw [if_pos e] at h0; norm_num at h0
  · rw [if_neg e] at h0; norm_num at h0

/-- The encoding used for clusters also survives the round trip. -/
theorem C44_cluster_roundtrip (E : Encoder A B C) (v : FeatureVector A B C) (hv : Allowed E v) (iteration : Rat) :
    ∃ x, E.convertToCluster v iteration = .ok x ∧ E.convertFromCluster x = .ok v := by
  obtain ⟨a, a1, a2⟩ := getIndex_mem hv.cte
  obtain ⟨b, b1, b2⟩ := getIndex_mem hv.dataLayout
  obtain ⟨c, c1, c2⟩ := getIndex_mem hv.newton3
  refine ⟨_, by unfold Encoder.convertToCluster Encoder.convertToTunable; rw [a1, b1, c1]; rfl, ?_⟩
  unfold Encoder.convertFromCluster
  simp only [Encoder.convertFromTunable, List.getD_cons_zero, List.getD_cons_succ, a2, b2, c2]
  rw [← hv.interactionType]

/-- The neighbours of a cluster are exactly the tuples that differ from it in exactly one dimension and are in range there, each listed once. -/
theorem C44_neighbours (restrictions target : List Nat) :
    (clusterNeighbours restrictions target).Nodup ∧ ∀ n : List Nat, n ∈ clusterNeighbours restrictions target ↔
      n.length = target.length ∧ ∃ i < target.length, n.getD i 0 < restrictions.getD i 0 ∧ n.getD i 0 ≠ target.getD i 0 ∧
        ∀ j, j ≠ i → n.getD j 0 = target.getD j 0 := by
  have hmem : ∀ n : List Nat, n ∈ clusterNeighbours restrictions target ↔
      ∃ i < target.length, ∃ x < restrictions.getD i 0, x ≠ target.getD i 0 ∧ n = target.set i x := by
    intro n
    unfold clusterNeighbours
    simp only [List.mem_flatMap, List.mem_range]
    constructor
    · rintro ⟨i, hi, x, hx, h⟩
      by_cases e : x ≠ target.getD i 0
      · rw [if_pos e, List.mem_singleton] at h; exact ⟨i, hi, x, hx, e, h⟩
      · rw [if_neg e] at h; cases h
    · rintro ⟨i, hi, x, hx, e, h⟩
      exact ⟨i, hi, x, hx, by rw [if_pos e, List.mem_singleton]; exact h⟩
  have hset : ∀ i x, i < target.length → (target.set i x).getD i 0 = x := by
    intro i x hi
    rw [List.getD_eq_getElem?_getD, List.getElem?_set_self hi]; rfl
  have hset' : ∀ i j x, j ≠ i → (target.set i x).getD j 0 = target.getD j 0 := by
    intro i j x hj
    rw [List.getD_eq_getElem?_getD, List.getElem?_set_ne (Ne.symm hj), ← List.getD_eq_getElem?_getD]
  refine ⟨?_, ?_⟩
  · unfold clusterNeighbours
    rw [List.nodup_flatMap]
    refine ⟨?_, ?_⟩
    · intro i hi
      rw [List.mem_range] at hi
      rw [List.nodup_flatMap]
      refine ⟨fun x _ => by split <;> simp, ?_⟩
      refine List.Pairwise.imp ?_ (List.nodup_range)
      intro x y hxy n h1 h2
      beta_reduce at h1 h2
      by_cases e1 : x ≠ target.getD i 0
      · by_cases e2 : y ≠ target.getD i 0
        · rw [if_pos e1, List.mem_singleton] at h1
          rw [if_pos e2, List.mem_singleton] at h2
          apply hxy
          rw [← hset i x hi, ← hset i y hi, ← h1, ← h2]
        · rw [if_neg e2] at h2; cases h2
      · rw [if_neg e1] at h1; cases h1
    · have hp : (List.range target.length).Pairwise fun a b => a ∈ List.range target.length ∧ b ∈ List.range target.length ∧ a ≠ b :=
        List.Pairwise.imp (fun h => ⟨h.1, h.2.1, h.2.2⟩) (List.Pairwise.and_mem.1 List.nodup_range)
      refine List.Pairwise.imp ?_ hp
      rintro i j ⟨hi, hj, hij⟩ n h1 h2
      rw [List.mem_range] at hi hj
      obtain ⟨x, -, h1⟩ := List.mem_flatMap.1 h1
      obtain ⟨y, -, h2⟩ := List.mem_flatMap.1 h2
      by_cases e1 : x ≠ target.getD i 0
      · by_cases e2 : y ≠ target.getD j 0
        · rw [if_pos e1, List.mem_singleton] at h1
          rw [if_pos e2, List.mem_singleton] at h2
          apply e1
          rw [← hset i x hi, ← h1, h2, hset' j i y hij]
        · rw [if_neg e2] at h2; cases h2
      · rw [if_neg e1] at h1; cases h1
  · intro n
    rw [hmem]
    constructor
    · rintro ⟨i, hi, x, hx, e, rfl⟩
      refine ⟨by simp, i, hi, by rw [hset i x hi]; exact hx, by rw [hset i x hi]; exact e, fun j hj => hset' i j x hj⟩
    · rintro ⟨hl, i, hi, hx, e, h⟩
      refine ⟨i, hi, n.getD i 0, hx, e, ?_⟩
      apply List.ext_getElem
      · simp [hl]
      · intro j h1 h2
        have hj2 : j < target.length := by omega
        have e1 : n.getD j 0 = n[j] := by simp [List.getD_eq_getElem?_getD, h1]
        have e2 : target.getD j 0 = target[j] := by simp [List.getD_eq_getElem?_getD, hj2]
        by_cases hj : j = i
        · subst hj
          rw [List.getElem_set_self, e1]
        · rw [List.getElem_set_ne (Ne.symm hj), ← e1, h j hj, e2]

/-- An encoder with three, two and two options, and an allowed vector. -/
example : let E : Encoder Nat Nat Nat := ⟨[10, 11, 12], [0, 1], [0, 1], 1⟩
    Allowed E ⟨11, 0, 1, 2, 1⟩ ∧ E.oneHotEncode ⟨11, 0, 1, 2, 1⟩ = .ok [0, 1, 0, 1, 0, 0, 1, 2] ∧
    E.oneHotDecode [0, 1, 0, 1, 0, 1, 1, 2] = .throws ∧ clusterNeighbours [3, 2, 2] [1, 0, 1] = [[0, 0, 1], [2, 0, 1], [1, 1, 1], [1, 0, 0]] := by
  refine ⟨⟨by decide, by decide, by decide, rfl⟩, by decide +kernel, by decide +kernel, by decide⟩

end Verif
