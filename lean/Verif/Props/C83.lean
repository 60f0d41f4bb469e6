import Verif.Lemmas.MDHalo
import Mathlib.Algebra.BigOperators.Group.List.Basic
import Mathlib.Tactic.FieldSimp
/-!
# C83 — the ranks of md-flexible divide the simulation box among themselves

However many ranks there are: the decomposition has exactly one domain per rank, only the requested dimensions are divided, domain ids and rank
numbers correspond one to one, and every position of the global box lies in the local box of exactly one rank.

If no dimension may be divided and there is more than one rank, the code takes the front of an empty list
(`C83_violated_nothing_to_divide`).
-/
namespace Verif
open Spec

private theorem twos_spec (n : Nat) (hn : n ≠ 0) : (rgTwos n).1.prod * (rgTwos n).2 = n ∧ (rgTwos n).2 % 2 = 1 := by
  induction n using Nat.strong_induction_on with
  | _ n ih =>
    unfold rgTwos
    by_cases h : n ≠ 0 ∧ n % 2 = 0
    · rw [dif_pos h]
      obtain ⟨a, b⟩ := ih (n / 2) (by omega) (by omega)
      refine ⟨?_, b⟩
      show (2 :: (rgTwos (n / 2)).1).prod * _ = _
      rw [List.prod_cons, Nat.mul_assoc, a]; omega
    · rw [dif_neg h]; simp; omega

private theorem divideOut_spec (i n : Nat) (hi : 2 ≤ i) (hn : n ≠ 0) :
    (rgDivideOut i n).1.prod * (rgDivideOut i n).2 = n ∧ ¬ i ∣ (rgDivideOut i n).2 := by
  induction n using Nat.strong_induction_on with
  | _ n ih =>
    unfold rgDivideOut
    by_cases h : n ≠ 0 ∧ 2 ≤ i ∧ n % i = 0
    · rw [dif_pos h]
      have hdvd : i ∣ n := Nat.dvd_of_mod_eq_zero h.2.2
      have hpos : n / i ≠ 0 := by
        have := Nat.div_pos (Nat.le_of_dvd (by omega) hdvd) (by omega); omega
      obtain ⟨a, b⟩ := ih (n / i) (Nat.div_lt_self (by omega) (by omega)) hpos
      refine ⟨?_, b⟩
      show (i :: (rgDivideOut i (n / i)).1).prod * _ = _
      rw [List.prod_cons, Nat.mul_assoc, a]; exact Nat.mul_div_cancel' hdvd
    · rw [dif_neg h]
      refine ⟨by simp, fun hd => h ⟨hn, hi, Nat.mod_eq_zero_of_dvd hd⟩⟩

private theorem odds_spec (fuel : Nat) : ∀ i n : Nat, 3 ≤ i → i % 2 = 1 → n ≠ 0 → (∀ k, 2 ≤ k → k < i → ¬ k ∣ n) → n < i + fuel →
    (rgOdds fuel i n).1.prod = n := by
  induction fuel with
  | zero =>
    intro i n hi _ hn hk hf
    have : n = 1 := by
      by_contra h1
      exact hk n (by omega) (by omega) (dvd_refl n)
    rw [this]; rfl
  | succ fuel ih =>
    intro i n hi hodd hn hk hf
    unfold rgOdds
    by_cases hle : i ≤ n
    · rw [if_pos hle]
      obtain ⟨a, b⟩ := divideOut_spec i n (by omega) hn
      set m := (rgDivideOut i n).2 with hm
      have hmn : m ∣ n := ⟨_, by rw [Nat.mul_comm]; exact a.symm⟩
      have hm0 : m ≠ 0 := fun h0 => by rw [h0, Nat.mul_zero] at a; exact hn a.symm
      have hmle := Nat.le_of_dvd (Nat.pos_of_ne_zero hn) hmn
      have := ih (i + 2) m (by omega) (by omega) hm0 ?_ (by omega)
      · show ((rgDivideOut i n).1 ++ (rgOdds fuel (i + 2) m).1).prod = n
        rw [List.prod_append, this, a]
      · intro k h2 hk2 hkm
        rcases Nat.lt_or_ge k i with h | h
        · exact hk k h2 h (hkm.trans hmn)
        · rcases Nat.lt_or_ge i k with h' | h'
          · have hki : k = i + 1 := by omega
            have h2k : 2 ∣ k := by omega
            exact hk 2 (by omega) (by omega) ((h2k.trans hkm).trans hmn)
          · have : k = i := by omega
            exact b (this ▸ hkm)
    · rw [if_neg hle]
      have : n = 1 := by
        by_contra h1
        exact hk n (by omega) (by omega) (dvd_refl n)
      rw [this]; rfl

private theorem merge_spec (dims : Nat) (hd : 1 ≤ dims) (fuel : Nat) : ∀ fs : List Nat, fs.length ≤ dims + fuel →
    ∃ gs, rgMerge dims fuel fs = .ok gs ∧ gs.length ≤ dims ∧ gs.prod = fs.prod := by
  induction fuel with
  | zero => intro fs h; exact ⟨fs, rfl, by omega, rfl⟩
  | succ fuel ih =>
    intro fs h
    unfold rgMerge
    by_cases hl : fs.length > dims
    · rw [if_pos hl]
      have hp := List.mergeSort_perm fs (fun a b => decide (a ≤ b))
      match hm : fs.mergeSort (fun a b => decide (a ≤ b)) with
      | [] => rw [hm] at hp; have := hp.length_eq; simp at this; omega
      | [a] => rw [hm] at hp; have := hp.length_eq; simp at this; omega
      | a :: b :: rest =>
        rw [hm] at hp
        have h1 := hp.length_eq
        simp only [List.length_cons] at h1
        obtain ⟨gs, e1, e2, e3⟩ := ih (b * a :: rest) (by simp only [List.length_cons]; omega)
        refine ⟨gs, e1, e2, ?_⟩
        rw [e3, ← hp.prod_eq]
        simp only [List.prod_cons]
        ring
    · rw [if_neg hl]
      exact ⟨fs, rfl, by omega, rfl⟩

private theorem assign_spec (fs : List Nat) (sub : V3 Bool) (h : fs.length ≤ sub.x.toNat + sub.y.toNat + sub.z.toNat) :
    (rgAssign fs sub).x * (rgAssign fs sub).y * (rgAssign fs sub).z = fs.prod ∧ (sub.x = false → (rgAssign fs sub).x = 1) ∧
      (sub.y = false → (rgAssign fs sub).y = 1) ∧ (sub.z = false → (rgAssign fs sub).z = 1) := by
  obtain ⟨sx, sy, sz⟩ := sub
  match fs with
  | [] => cases sx <;> cases sy <;> cases sz <;> simp [rgAssign]
  | [a] => cases sx <;> cases sy <;> cases sz <;> simp [rgAssign] <;> simp at h
  | [a, b] => cases sx <;> cases sy <;> cases sz <;> simp [rgAssign] <;> simp at h
  | [a, b, c] => cases sx <;> cases sy <;> cases sz <;> simp [rgAssign, Nat.mul_assoc] <;> simp at h
  | a :: b :: c :: d :: rest => cases sx <;> cases sy <;> cases sz <;> simp at h <;> omega

/-- One domain per rank, and only the requested dimensions are divided: for every number of ranks, if at least one dimension may be divided or
there is only one rank. -/
theorem C83_decomposition_partial (count : Nat) (hc : 0 < count) (sub : V3 Bool) (hs : count = 1 ∨ sub.x = true ∨ sub.y = true ∨ sub.z = true) :
    ∃ dec, generateDecomposition count sub = .ok dec ∧ dec.x * dec.y * dec.z = count ∧ (sub.x = false → dec.x = 1) ∧
      (sub.y = false → dec.y = 1) ∧ (sub.z = false → dec.z = 1) := by
  obtain ⟨a1, a2⟩ := twos_spec count (by omega)
  have hm0 : (rgTwos count).2 ≠ 0 := by omega
  have a3 := odds_spec (rgTwos count).2 3 (rgTwos count).2 (by omega) (by omega) hm0 (by
    intro k h2 h3 hk
    have : k = 2 := by omega
    subst this
    omega) (by omega)
  have hprod : ((rgTwos count).1 ++ (rgOdds (rgTwos count).2 3 (rgTwos count).2).1).prod = count := by rw [List.prod_append, a3, a1]
  unfold generateDecomposition
  dsimp only
  generalize hfs : (rgTwos count).1 ++ (rgOdds (rgTwos count).2 3 (rgTwos count).2).1 = fs at hprod ⊢
  rcases hs with hs | hs
  · have hnil : fs = [] := by
      rw [← hfs, hs]
      have h1 : rgTwos 1 = ([], 1) := by unfold rgTwos; rw [dif_neg (by omega)]
      rw [h1]; rfl
    subst hnil
    refine ⟨rgAssign [] sub, ?_, ?_⟩
    · rfl
    · obtain ⟨b1, b2⟩ := assign_spec [] sub (by simp)
      exact ⟨by rw [b1, ← hprod], b2⟩
  · have hd : 1 ≤ sub.x.toNat + sub.y.toNat + sub.z.toNat := by rcases hs with h | h | h <;> rw [h] <;> simp <;> omega
    obtain ⟨gs, e1, e2, e3⟩ := merge_spec _ hd fs.length fs (by omega)
    rw [e1]
    obtain ⟨b1, b2⟩ := assign_spec gs sub e2
    exact ⟨rgAssign gs sub, rfl, by rw [b1, e3, hprod], b2⟩

/-- With two or more ranks and no dimension that may be divided the code runs into undefined behaviour. -/
theorem C83_violated_nothing_to_divide (count : Nat) (hc : 2 ≤ count) : generateDecomposition count ⟨false, false, false⟩ = .ub := by
  obtain ⟨a1, a2⟩ := twos_spec count (by omega)
  have hm0 : (rgTwos count).2 ≠ 0 := by omega
  have a3 := odds_spec (rgTwos count).2 3 (rgTwos count).2 (by omega) (by omega) hm0 (by
    intro k h2 h3 hk
    have : k = 2 := by omega
    subst this
    omega) (by omega)
  have hprod : ((rgTwos count).1 ++ (rgOdds (rgTwos count).2 3 (rgTwos count).2).1).prod = count := by rw [List.prod_append, a3, a1]
  unfold generateDecomposition
  dsimp only
  generalize hfs : (rgTwos count).1 ++ (rgOdds (rgTwos count).2 3 (rgTwos count).2).1 = fs at hprod ⊢
  have key : ∀ n : Nat, ∀ fs : List Nat, fs.length = n + 1 → ∀ fuel, n + 1 ≤ fuel → rgMerge 0 fuel fs = .ub := by
    intro n
    induction n with
    | zero =>
      intro fs hl fuel hf
      obtain ⟨fuel, rfl⟩ : ∃ k, fuel = k + 1 := ⟨fuel - 1, by omega⟩
      unfold rgMerge
      rw [if_pos (by omega)]
      have hp := (List.mergeSort_perm fs (fun a b => decide (a ≤ b))).length_eq
      match hm : fs.mergeSort (fun a b => decide (a ≤ b)) with
      | [] => rfl
      | [a] => rfl
      | a :: b :: rest => rw [hm] at hp; simp at hp; omega
    | succ n ih =>
      intro fs hl fuel hf
      obtain ⟨fuel, rfl⟩ : ∃ k, fuel = k + 1 := ⟨fuel - 1, by omega⟩
      unfold rgMerge
      rw [if_pos (by omega)]
      have hp := (List.mergeSort_perm fs (fun a b => decide (a ≤ b))).length_eq
      match hm : fs.mergeSort (fun a b => decide (a ≤ b)) with
      | [] => rfl
      | [a] => rfl
      | a :: b :: rest =>
        rw [hm] at hp; simp only [List.length_cons] at hp
        exact ih _ (by simp only [List.length_cons]; omega) fuel (by omega)
  have hpos : fs ≠ [] := by rintro rfl; simp at hprod; omega
  have hl : 0 < fs.length := List.length_pos_of_ne_nil hpos
  have := key (fs.length - 1) fs (by omega) fs.length (by omega)
  show (rgMerge (0 + 0 + 0) fs.length fs).bind _ = _
  rw [this]; rfl

/-- Rank numbers and domain ids correspond one to one. -/
theorem C83_index_of_id (dec : V3 Nat) (id : V3 Nat) (h : id.x < dec.x ∧ id.y < dec.y ∧ id.z < dec.z) :
    convertIdToIndex id dec < dec.x * dec.y * dec.z ∧ convertIndexToId (convertIdToIndex id dec) dec = id := by
  obtain ⟨nx, ny, nz⟩ := dec
  obtain ⟨i, j, k⟩ := id
  obtain ⟨hi, hj, hk⟩ := h
  dsimp only at hi hj hk
  have hyz : nz * j + k < ny * nz := by
    have : nz * (j + 1) ≤ nz * ny := Nat.mul_le_mul_left _ hj
    rw [Nat.mul_add, Nat.mul_one, Nat.mul_comm nz ny] at this; omega
  have hxyz : ny * nz * i + (nz * j + k) < nx * (ny * nz) := by
    have : (ny * nz) * (i + 1) ≤ (ny * nz) * nx := Nat.mul_le_mul_left _ hi
    rw [Nat.mul_add, Nat.mul_one, Nat.mul_comm (ny * nz) nx] at this; omega
  have d1 : (ny * nz * i + (nz * j + k)) / (ny * nz) = i := by
    rw [Nat.mul_add_div (by omega), Nat.div_eq_of_lt hyz, Nat.add_zero]
  have d2 : (nz * j + k) / nz = j := by
    rw [Nat.mul_add_div (by omega), Nat.div_eq_of_lt hk, Nat.add_zero]
  constructor
  · simp only [convertIdToIndex, getAccumulatedTail, Nat.one_mul, Nat.add_assoc]
    rw [Nat.mul_assoc nx]; exact hxyz
  · simp only [convertIndexToId, convertIdToIndex, getAccumulatedTail, Nat.one_mul, Nat.add_assoc, d1, Nat.add_sub_cancel_left, d2, Nat.div_one]

theorem C83_id_of_index (dec : V3 Nat) (index : Nat) (h : index < dec.x * dec.y * dec.z) :
    ((convertIndexToId index dec).x < dec.x ∧ (convertIndexToId index dec).y < dec.y ∧ (convertIndexToId index dec).z < dec.z) ∧
      convertIdToIndex (convertIndexToId index dec) dec = index := by
  obtain ⟨nx, ny, nz⟩ := dec
  dsimp only at h
  have hz : 0 < nz := Nat.pos_of_ne_zero fun h0 => by simp [h0] at h
  have hy : 0 < ny := Nat.pos_of_ne_zero fun h0 => by simp [h0] at h
  have hyz : 0 < ny * nz := Nat.mul_pos hy hz
  simp only [convertIndexToId, convertIdToIndex, getAccumulatedTail, Nat.one_mul, Nat.div_one]
  have e1 : index - ny * nz * (index / (ny * nz)) = index % (ny * nz) := by
    have := Nat.div_add_mod index (ny * nz); omega
  rw [e1]
  have e2 : index % (ny * nz) - nz * (index % (ny * nz) / nz) = index % (ny * nz) % nz := by
    have := Nat.div_add_mod (index % (ny * nz)) nz; omega
  rw [e2]
  refine ⟨⟨?_, ?_, Nat.mod_lt _ hz⟩, ?_⟩
  · exact Nat.div_lt_of_lt_mul (by rw [Nat.mul_comm, ← Nat.mul_assoc]; exact h)
  · exact Nat.div_lt_of_lt_mul (by rw [Nat.mul_comm nz ny]; exact Nat.mod_lt _ hyz)
  · have a := Nat.div_add_mod (index % (ny * nz)) nz
    have b := Nat.div_add_mod index (ny * nz)
    omega

/-- Right after construction the local boxes tile the global box: they are the cells of a regular grid. -/
theorem C83_local_boxes_tile (gMin gMax : V3 Rat) (dec : V3 Nat) (boundary : V3 BoundaryType) (cutoff skin minWidth : Rat)
    (hdec : ∀ d : Axis, 0 < dec.at d) (hwide : ∀ d : Axis, minWidth * dec.at d ≤ gMax.at d - gMin.at d) :
    Tiling (RGD.init gMin gMax dec boundary cutoff skin) (fun d i => i * ((gMax.at d - gMin.at d) / dec.at d) + gMin.at d) minWidth := by
  have hne : ∀ d : Axis, (dec.at d : Rat) ≠ 0 := fun d => by have := hdec d; positivity
  refine ⟨hdec, fun d => by simp [RGD.init], fun d => ?_, fun d i _ => ?_, fun r _ d => ?_, fun r _ d => ?_⟩
  · show (dec.at d : Rat) * ((gMax.at d - gMin.at d) / dec.at d) + gMin.at d = gMax.at d
    rw [mul_div_cancel₀ _ (hne d)]; ring
  · have h1 : minWidth ≤ (gMax.at d - gMin.at d) / dec.at d := by
      rw [le_div_iff₀ (by have := hdec d; positivity)]; exact hwide d
    push_cast
    linarith
  · cases d <;> rfl
  · cases d <;> simp [RGD.init, rgLocalBox, V3.at]

/-- Every position of the global box lies in the local box of exactly one rank, for any tiling, in particular the initial one. -/
theorem C83_exactly_one_rank (D : RGD) (cut : Axis → Nat → Rat) (h : Tiling D cut 0) (p : V3 Rat) (hp : InBox p D.gMin D.gMax) :
    ∃ r, (IsRank D r ∧ InBox p (D.lo r) (D.hi r)) ∧ ∀ s, IsRank D s → InBox p (D.lo s) (D.hi s) → s = r := by
  have hfind : ∀ d : Axis, ∃ i, i < D.dec.at d ∧ cut d i ≤ p.at d ∧ p.at d < cut d (i + 1) := by
    intro d
    have hg := inBox_iff_at.1 hp d
    have key : ∀ n, n ≤ D.dec.at d → p.at d < cut d n → ∃ i, i < n ∧ cut d i ≤ p.at d ∧ p.at d < cut d (i + 1) := by
      intro n
      induction n with
      | zero => intro _ h0; rw [h.first] at h0; exact absurd hg.1 (not_le.2 h0)
      | succ n ih =>
        intro hn h0
        by_cases hc : p.at d < cut d n
        · obtain ⟨i, a, b⟩ := ih (by omega) hc
          exact ⟨i, by omega, b⟩
        · exact ⟨n, by omega, not_lt.1 hc, h0⟩
    exact key _ le_rfl (by rw [h.last]; exact hg.2)
  obtain ⟨i, hi, i1, i2⟩ := hfind .x
  obtain ⟨j, hj, j1, j2⟩ := hfind .y
  obtain ⟨k, hk, k1, k2⟩ := hfind .z
  have hr : IsRank D ⟨i, j, k⟩ := ⟨hi, hj, hk⟩
  have hin : InBox p (D.lo ⟨i, j, k⟩) (D.hi ⟨i, j, k⟩) := by
    rw [inBox_iff_at]
    intro d
    rw [h.lo _ hr, h.hi _ hr]
    cases d
    exacts [⟨i1, i2⟩, ⟨j1, j2⟩, ⟨k1, k2⟩]
  exact ⟨⟨i, j, k⟩, ⟨hr, hin⟩, fun s hs h1 => box_unique h le_rfl hs hr h1 hin⟩

example : ∃ dec, generateDecomposition 12 ⟨true, true, true⟩ = .ok dec ∧ dec.x * dec.y * dec.z = 12 := by
  obtain ⟨dec, h1, h2, -⟩ := C83_decomposition_partial 12 (by omega) ⟨true, true, true⟩ (by simp)
  exact ⟨dec, h1, h2⟩

example : Tiling (RGD.init ⟨0, 0, 0⟩ ⟨12, 6, 6⟩ ⟨3, 2, 1⟩ ⟨.periodic, .periodic, .periodic⟩ 1 (1/5))
    (fun d i => i * (((⟨12, 6, 6⟩ : V3 Rat).at d - (⟨0, 0, 0⟩ : V3 Rat).at d) / (⟨3, 2, 1⟩ : V3 Nat).at d) + (⟨0, 0, 0⟩ : V3 Rat).at d) (12/5) :=
  C83_local_boxes_tile _ _ _ _ _ _ _ (by intro d; cases d <;> decide) (by intro d; cases d <;> norm_num [V3.at])

end Verif
