import Verif.Model.LCC01Combined
import Verif.Lemmas.LCC01
/-! The slices of `lc_c01` are prefixes of each other towards the middle. -/
namespace Verif

/-- The slices at distance at most `j` from the middle all hold the same `(y, z)`. -/
private def Same (ov : Int) (j : Int) (M : List (Int × Int)) (s : C01Slices) : Prop :=
  ∀ k : Nat, -j ≤ k - ov → k - ov ≤ j → s k = M.map fun p => ((k : Int) - ov, p.1, p.2)

/-- The middle comes first, the rest is in the range of the loops. -/
private structure GoodYZ (ovy : Int) (M : List (Int × Int)) : Prop where
  head : (0, 0) ∈ M → ∃ R, M = (0, 0) :: R
  range : ∀ p ∈ M, -ovy ≤ p.1 ∧ p.1 ≤ ovy

variable {dims : V3 Nat} {cl : V3 Rat} {il : Rat} {j y z : Int} {M : List (Int × Int)} {s : C01Slices}

private theorem step_same (h : C18Dims dims cl il)
    (h0 : 0 ≤ j) (hj : j ≤ (overlapOf il cl).x) (hs : Same (overlapOf il cl).x j M s) (hh : GoodYZ (overlapOf il cl).y M)
    (hy : -(overlapOf il cl).y ≤ y ∧ y ≤ (overlapOf il cl).y) :
    ∃ M', Same (overlapOf il cl).x j M' (c01Step dims cl il s (-j, y, z)) ∧
      (∀ k : Nat, (k - (overlapOf il cl).x < -j ∨ j < k - (overlapOf il cl).x) → c01Step dims cl il s (-j, y, z) k = s k) ∧
      GoodYZ (overlapOf il cl).y M' ∧ ((0, 0) ∈ M → M <+: M') ∧
      (((0, 0) ∈ M ∨ ((y = 0 ∧ z = 0) ∧ (gapVec cl (-j) 0 0).dot (gapVec cl (-j) 0 0) ≤ il * il)) → (0, 0) ∈ M') := by
  obtain ⟨o1, o2, o3⟩ := h.pos.ov
  have hdx := h.x
  unfold c01Step
  simp only
  have hmid : s (-j + (overlapOf il cl).x).toNat = M.map fun p => (-j, p.1, p.2) := by
    rw [hs _ (by omega) (by omega)]
    congr 1
    funext p
    rw [show ((-j + (overlapOf il cl).x).toNat : Int) - (overlapOf il cl).x = -j by omega]
  rw [hmid]
  split_ifs with hg hc
  · refine ⟨M, hs, fun _ _ => rfl, hh, fun _ => List.prefix_rfl, ?_⟩
    rintro (h1 | ⟨⟨rfl, rfl⟩, -⟩)
    · exact h1
    · obtain ⟨e, he, hfe⟩ := List.any_eq_true.1 hc
      obtain ⟨⟨py, pz⟩, hp, rfl⟩ := List.mem_map.1 he
      simp only [beq_iff_eq] at hfe
      obtain ⟨e1, e2⟩ := flat_yz_inj (by omega) h.y (hh.range _ hp) hy hfe
      simp only at e1 e2
      subst e1 e2
      exact hp
  · have hnot : (y, z) ∉ M := by
      intro hm
      apply hc
      rw [List.any_eq_true]
      exact ⟨(-j, y, z), List.mem_map.2 ⟨(y, z), hm, rfl⟩, by simp⟩
    have key := c01AddIx_fold (overlapOf il cl).x y z (forInt (-j) ((-j).natAbs))
      ((sorted_forInt _ _).imp (fun h => ne_of_lt h)) (fun i hi => by rw [mem_forInt] at hi; omega) s
    have out : ∀ k : Nat, (k - (overlapOf il cl).x < -j ∨ j < k - (overlapOf il cl).x) →
        ((forInt (-j) ((-j).natAbs)).foldl (c01AddIx (overlapOf il cl).x y z) s) k = s k := by
      intro k hk
      rw [key, if_neg]
      rw [mem_forInt]; omega
    by_cases hz : y = 0 ∧ z = 0
    · obtain ⟨rfl, rfl⟩ := hz
      refine ⟨(0, 0) :: M, ?_, out, ⟨fun _ => ⟨M, rfl⟩, ?_⟩, fun hm => absurd hm hnot, fun _ => List.mem_cons_self⟩
      · intro k k1 k2
        rw [key, if_pos (by rw [mem_forInt]; omega), if_pos ⟨rfl, rfl⟩, hs k k1 k2]
        rfl
      · intro p hp
        rcases List.mem_cons.1 hp with rfl | hp
        · exact hy
        · exact hh.range p hp
    · refine ⟨M ++ [(y, z)], ?_, out, ⟨?_, ?_⟩, fun _ => List.prefix_append _ _, ?_⟩
      · intro k k1 k2
        rw [key, if_pos (by rw [mem_forInt]; omega), if_neg hz, hs k k1 k2]
        simp
      · intro hm
        rcases List.mem_append.1 hm with hm | hm
        · obtain ⟨R, rfl⟩ := hh.head hm
          exact ⟨R ++ [(y, z)], rfl⟩
        · rw [List.mem_singleton, Prod.mk.injEq] at hm
          exact absurd ⟨hm.1.symm, hm.2.symm⟩ hz
      · intro p hp
        rcases List.mem_append.1 hp with hp | hp
        · exact hh.range p hp
        · rw [List.mem_singleton] at hp
          subst hp
          exact hy
      · rintro (h1 | ⟨h1, -⟩)
        · exact List.mem_append.2 (.inl h1)
        · exact absurd h1 hz
  · refine ⟨M, hs, fun _ _ => rfl, hh, fun _ => List.prefix_rfl, ?_⟩
    rintro (h1 | ⟨⟨rfl, rfl⟩, h1⟩)
    · exact h1
    · exact absurd h1 hg

private theorem stage_same (h : C18Dims dims cl il) (h0 : 0 ≤ j) (hj : j ≤ (overlapOf il cl).x) (T : List (Int × Int))
    (hT : ∀ t ∈ T, -(overlapOf il cl).y ≤ t.1 ∧ t.1 ≤ (overlapOf il cl).y) :
    ∀ (M : List (Int × Int)) (s : C01Slices), Same (overlapOf il cl).x j M s → GoodYZ (overlapOf il cl).y M →
    ∃ M', Same (overlapOf il cl).x j M' ((T.map fun t => (-j, t.1, t.2)).foldl (c01Step dims cl il) s) ∧
      (∀ k : Nat, (k - (overlapOf il cl).x < -j ∨ j < k - (overlapOf il cl).x) →
        ((T.map fun t => (-j, t.1, t.2)).foldl (c01Step dims cl il) s) k = s k) ∧
      GoodYZ (overlapOf il cl).y M' ∧ ((0, 0) ∈ M → M <+: M') ∧
      (((0, 0) ∈ M ∨ ((0, 0) ∈ T ∧ (gapVec cl (-j) 0 0).dot (gapVec cl (-j) 0 0) ≤ il * il)) → (0, 0) ∈ M') := by
  induction T with
  | nil =>
    intro M s hs hh
    exact ⟨M, hs, fun _ _ => rfl, hh, fun _ => List.prefix_rfl, fun h1 => h1.elim id fun h2 => absurd h2.1 (by simp)⟩
  | cons t T ih =>
    intro M s hs hh
    obtain ⟨ty, tz⟩ := t
    obtain ⟨M1, a1, a2, a3, a4, a5⟩ := step_same (z := tz) h h0 hj hs hh (hT (ty, tz) (by simp))
    obtain ⟨M2, b1, b2, b3, b4, b5⟩ := ih (fun t ht => hT t (by simp [ht])) M1 _ a1 a3
    refine ⟨M2, b1, ?_, b3, ?_, ?_⟩
    · intro k hk
      simp only [List.map_cons, List.foldl_cons]
      rw [b2 k hk, a2 k hk]
    · intro hm
      exact (a4 hm).trans (b4 (a5 (.inl hm)))
    · rintro (hm | ⟨hm, hg⟩)
      · exact b5 (.inl (a5 (.inl hm)))
      · rcases List.mem_cons.1 hm with he | hm
        · rw [Prod.mk.injEq] at he
          exact b5 (.inl (a5 (.inr ⟨⟨he.1.symm, he.2.symm⟩, hg⟩)))
        · exact b5 (.inr ⟨hm, hg⟩)

/-- The state after the stages `x = -overlap .. -j`. -/
private structure Chain (ov ovy : Int) (j : Int) (s : C01Slices) : Prop where
  same : ∃ M, Same ov j M s ∧ GoodYZ ovy M ∧ (0, 0) ∈ M
  right : ∀ k : Nat, j ≤ k - ov → (s (k + 1)).map Prod.snd <+: (s k).map Prod.snd
  left : ∀ k : Nat, (k : Int) - ov < -j → (s k).map Prod.snd <+: (s (k + 1)).map Prod.snd

private theorem map_snd_map (x : Int) (M : List (Int × Int)) : (M.map fun p => (x, p.1, p.2)).map Prod.snd = M := by
  rw [List.map_map]
  exact List.map_id _

private theorem chain_stages (h : C18Dims dims cl il) (T : List (Int × Int))
    (hT : ∀ t ∈ T, -(overlapOf il cl).y ≤ t.1 ∧ t.1 ≤ (overlapOf il cl).y) (h0 : (0, 0) ∈ T)
    (hg : (gapVec cl (overlapOf il cl).x 0 0).dot (gapVec cl (overlapOf il cl).x 0 0) ≤ il * il) (m : Nat)
    (hm : (m : Int) ≤ (overlapOf il cl).x) :
    Chain (overlapOf il cl).x (overlapOf il cl).y ((overlapOf il cl).x - m)
      ((((List.range (m + 1)).map fun (k : Nat) => -(overlapOf il cl).x + k).flatMap fun x => T.map fun t => (x, t.1, t.2)).foldl
        (c01Step dims cl il) (fun _ => [])) := by
  obtain ⟨o1, o2, o3⟩ := h.pos.ov
  have hneg : gapVec cl (-(overlapOf il cl).x) 0 0 = gapVec cl (overlapOf il cl).x 0 0 := by
    unfold gapVec; simp
  induction m with
  | zero =>
    obtain ⟨M, a1, a2, a3, a4, a5⟩ := stage_same h (j := (overlapOf il cl).x) (by omega) le_rfl T hT [] (fun _ => [])
      (fun k _ _ => rfl) ⟨fun hx => absurd hx (by simp), fun p hp => absurd hp (by simp)⟩
    have hc : ∀ f : Int → List (Int × Int × Int), ((List.range (0 + 1)).map fun (k : Nat) => -(overlapOf il cl).x + k).flatMap f =
        f (-(overlapOf il cl).x) := by intro f; simp
    rw [hc]
    refine ⟨⟨M, ?_, a3, a5 (.inr ⟨h0, by rw [hneg]; exact hg⟩)⟩, ?_, ?_⟩
    · intro k k1 k2
      exact a1 k (by simpa using k1) (by simpa using k2)
    · intro k hk
      rw [a2 (k + 1) (by simp only [Nat.cast_zero] at hk; push_cast; omega)]
      exact List.nil_prefix
    · intro k hk
      simp only [Nat.cast_zero] at hk
      omega
  | succ m ih =>
    have ih := ih (by omega)
    rw [List.range_succ, List.map_append, List.flatMap_append, List.foldl_append]
    obtain ⟨M, s1, s2, s3⟩ := ih.same
    generalize ((((List.range (m + 1)).map fun (k : Nat) => -(overlapOf il cl).x + k).flatMap fun x => T.map fun t => (x, t.1, t.2)).foldl
        (c01Step dims cl il) (fun _ => [])) = s at *
    have hx : -(overlapOf il cl).x + ((m + 1 : Nat) : Int) = -((overlapOf il cl).x - (m + 1 : Nat)) := by omega
    simp only [List.map_cons, List.map_nil, List.flatMap_cons, List.flatMap_nil, List.append_nil]
    rw [hx]
    generalize hjj : (overlapOf il cl).x - ((m + 1 : Nat) : Int) = j
    have hj : (overlapOf il cl).x - (m : Int) = j + 1 := by omega
    rw [hj] at ih s1
    obtain ⟨M', a1, a2, a3, a4, a5⟩ := stage_same h (j := j) (by omega) (by omega) T hT M s
      (fun k k1 k2 => s1 k (by omega) (by omega)) s2
    refine ⟨⟨M', a1, a3, a5 (.inl s3)⟩, ?_, ?_⟩
    · intro k hk
      rw [a2 (k + 1) (by push_cast; omega)]
      by_cases hk' : (k : Int) - (overlapOf il cl).x = j
      · rw [a1 k (by omega) (by omega), s1 (k + 1) (by push_cast; omega) (by push_cast; omega), map_snd_map, map_snd_map]
        exact a4 s3
      · rw [a2 k (by omega)]
        exact ih.right k (by omega)
    · intro k hk
      rw [a2 k (by omega)]
      by_cases hk' : (k : Int) - (overlapOf il cl).x = -(j + 1)
      · rw [a1 (k + 1) (by push_cast; omega) (by push_cast; omega), s1 k (by omega) (by omega), map_snd_map, map_snd_map]
        exact a4 s3
      · rw [a2 (k + 1) (by push_cast; omega)]
        exact ih.left k (by omega)

private theorem slices_chain (h : C18Dims dims cl il) :
    Chain (overlapOf il cl).x (overlapOf il cl).y 0 (c01Slices dims cl il) := by
  obtain ⟨o1, o2, o3⟩ := h.pos.ov
  have hg : (gapVec cl (overlapOf il cl).x 0 0).dot (gapVec cl (overlapOf il cl).x 0 0) ≤ il * il := by
    have hlt : ((overlapOf il cl).x : Rat) - 1 < il / cl.x := by
      have := Int.ceil_lt_add_one (il / cl.x)
      change ((overlapOf il cl).x : Rat) < _ at this
      linarith
    rw [lt_div_iff₀ h.pos.x] at hlt
    have e : (gapVec cl (overlapOf il cl).x 0 0).dot (gapVec cl (overlapOf il cl).x 0 0) =
        (((overlapOf il cl).x : Rat) - 1) * cl.x * ((((overlapOf il cl).x : Rat) - 1) * cl.x) := by
      unfold gapVec V3.dot
      simp only [Int.natAbs_zero]
      rw [show max 0 (((overlapOf il cl).x.natAbs : Int) - 1) = (overlapOf il cl).x - 1 by omega]
      push_cast
      norm_num
    rw [e]
    have : (1 : Rat) ≤ (overlapOf il cl).x := by exact_mod_cast o1
    have h2 : 0 ≤ (((overlapOf il cl).x : Rat) - 1) * cl.x := mul_nonneg (by linarith) h.pos.x.le
    exact mul_self_le_mul_self h2 hlt.le
  have key := chain_stages h ((forInt (-(overlapOf il cl).y) (overlapOf il cl).y).flatMap fun y =>
      (forInt (-(overlapOf il cl).z) (overlapOf il cl).z).map fun z => (y, z)) ?_ ?_ hg (overlapOf il cl).x.toNat (by omega)
  · have e0 : (overlapOf il cl).x - ((overlapOf il cl).x.toNat : Int) = 0 := by omega
    rw [e0] at key
    unfold c01Slices c01Loop
    have e1 : forInt (-(overlapOf il cl).x) 0 = (List.range ((overlapOf il cl).x.toNat + 1)).map fun (k : Nat) => -(overlapOf il cl).x + k := by
      unfold forInt
      congr 2
      omega
    rw [e1]
    simp only [List.map_flatMap, List.map_map] at key
    exact key
  · intro t ht
    simp only [List.mem_flatMap, List.mem_map, mem_forInt] at ht
    obtain ⟨y, hy, z, hz, rfl⟩ := ht
    exact hy
  · simp only [List.mem_flatMap, List.mem_map, mem_forInt]
    exact ⟨0, by omega, 0, by omega, rfl⟩

/-- The slice of the middle starts with the base cell. -/
theorem c01Slices_mid (h : C18Dims dims cl il) : ∃ R, c01Slices dims cl il (overlapOf il cl).x.toNat = (0, 0, 0) :: R := by
  obtain ⟨o1, -, -⟩ := h.pos.ov
  obtain ⟨⟨M, a1, a2, a3⟩, -, -⟩ := slices_chain h
  obtain ⟨R, rfl⟩ := a2.head a3
  rw [a1 _ (by omega) (by omega)]
  refine ⟨R.map fun p => (0, p.1, p.2), ?_⟩
  have e : ((overlapOf il cl).x.toNat : Int) - (overlapOf il cl).x = 0 := by omega
  rw [e]
  rfl

theorem c01Slices_right (h : C18Dims dims cl il) {k : Nat} (hk : (overlapOf il cl).x.toNat ≤ k) :
    (c01Slices dims cl il (k + 1)).map Prod.snd <+: (c01Slices dims cl il k).map Prod.snd :=
  (slices_chain h).right k (by have := h.pos.ov; omega)

theorem c01Slices_left (h : C18Dims dims cl il) {k : Nat} (hk : k < (overlapOf il cl).x.toNat) :
    (c01Slices dims cl il k).map Prod.snd <+: (c01Slices dims cl il (k + 1)).map Prod.snd :=
  (slices_chain h).left k (by have := h.pos.ov; omega)

theorem c01Slices_x (h : C18Dims dims cl il) {k : Nat} {e : Int × Int × Int} (he : e ∈ c01Slices dims cl il k) :
    e.1 = k - (overlapOf il cl).x := ((c01_slices_inv h k).2 e).1 he |>.1

end Verif
