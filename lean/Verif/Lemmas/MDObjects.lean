import Mathlib.Tactic.Linarith
import Mathlib.Tactic.Ring
import Mathlib.Tactic.Positivity
import Mathlib.Tactic.FieldSimp
import Mathlib.Tactic.NormNum
import Mathlib.Data.List.Nodup
import Verif.Model.MDObjects
import Verif.Spec.MDObjects
import Verif.Lemmas.LogicControl
import Verif.Lemmas.Basic
/-! Lemmas about the object generators of md-flexible. -/
namespace Verif

open Spec.MDObjects

/-! ### Loops -/

theorem upLoop_eq {stop step : ℝ} (hs : 0 < step) : ∀ (n fuel : Nat) (x : ℝ), ⌈(stop - x) / step⌉₊ = n → n < fuel →
    upLoop stop step fuel x = some ((List.range n).map fun i : Nat => x + i * step) := by
  intro n
  induction n with
  | zero =>
    intro fuel x hn hf
    obtain ⟨f, rfl⟩ : ∃ f, fuel = f + 1 := ⟨fuel - 1, by omega⟩
    have h0 : (stop - x) / step ≤ 0 := by simpa using Nat.ceil_eq_zero.1 hn
    have h1 : stop - x ≤ 0 := by
      by_contra h
      have := div_pos (lt_of_not_ge h) hs
      linarith
    have h2 : ¬ x < stop := by linarith
    simp [upLoop, h2]
  | succ n ih =>
    intro fuel x hn hf
    obtain ⟨f, rfl⟩ : ∃ f, fuel = f + 1 := ⟨fuel - 1, by omega⟩
    have h0 := (Nat.ceil_eq_iff (by omega)).1 hn
    have h2 : x < stop := by
      have h3 : 0 < (stop - x) / step := lt_of_le_of_lt (by positivity) h0.1
      have := (div_pos_iff_of_pos_right hs).1 h3
      linarith
    have he : (stop - (x + step)) / step = (stop - x) / step - 1 := by field_simp; ring
    have hn' : ⌈(stop - (x + step)) / step⌉₊ = n := by
      rw [he]
      rcases Nat.eq_zero_or_pos n with rfl | hp
      · refine Nat.ceil_eq_zero.2 ?_
        have := h0.2
        push_cast at this
        linarith
      · refine (Nat.ceil_eq_iff (by omega)).2 ⟨?_, ?_⟩
        · have := h0.1
          have hc : ((n + 1 - 1 : ℕ) : ℝ) = ((n - 1 : ℕ) : ℝ) + 1 := by
            rw [show n + 1 - 1 = (n - 1) + 1 by omega]; push_cast; ring
          rw [hc] at this
          linarith
        · have := h0.2
          push_cast at this
          linarith
    rw [upLoop, if_pos h2, ih f (x + step) hn' (by omega), List.range_succ_eq_map]
    simp only [Option.map_some, List.map_cons, List.map_map, Option.some.injEq, List.cons.injEq]
    refine ⟨by simp, ?_⟩
    refine List.map_congr_left fun i _ => ?_
    simp only [Function.comp]
    push_cast
    ring

theorem upValues_eq {start stop step : ℝ} (hs : 0 < step) :
    upValues start stop step = .ok ((List.range ⌈(stop - start) / step⌉₊).map fun i : Nat => start + i * step) := by
  unfold upValues
  rw [upLoop_eq hs _ _ _ rfl (Nat.lt_succ_self _)]

/-- The index bound of the loop is the condition of the loop. -/
theorem lt_ceil_iff {start stop step : ℝ} (hs : 0 < step) (i : Nat) : i < ⌈(stop - start) / step⌉₊ ↔ start + i * step < stop := by
  rw [Nat.lt_ceil, lt_div_iff₀ hs]
  constructor <;> intro h <;> linarith

theorem upValues_diverges {start stop step : ℝ} (hs : step ≤ 0) (h : start < stop) : upValues start stop step = .diverges := by
  have hc : ⌈(stop - start) / step⌉₊ = 0 := by
    refine Nat.ceil_eq_zero.2 ?_
    exact div_nonpos_of_nonneg_of_nonpos (by linarith) hs
  unfold upValues
  rw [hc]
  simp [upLoop, h]

/-! ### Placing particles -/

theorem placeFrom_length (p0 : ObjParticle) : ∀ (qs : List (V3 ℝ)) (id : Nat), (placeFrom p0 id qs).length = qs.length
  | [], _ => rfl
  | _ :: qs, id => by simp [placeFrom, placeFrom_length p0 qs]

theorem placeFrom_pos (p0 : ObjParticle) : ∀ (qs : List (V3 ℝ)) (id : Nat), (placeFrom p0 id qs).map (·.pos) = qs
  | [], _ => rfl
  | _ :: qs, id => by simp [placeFrom, placeFrom_pos p0 qs]

theorem placeFrom_id (p0 : ObjParticle) : ∀ (qs : List (V3 ℝ)) (id : Nat),
    (placeFrom p0 id qs).map (·.id) = (List.range qs.length).map (id + ·)
  | [], _ => rfl
  | _ :: qs, id => by
    simp only [placeFrom, List.map_cons, placeFrom_id p0 qs, List.length_cons, List.range_succ_eq_map, List.map_map]
    refine List.cons_eq_cons.2 ⟨by simp, List.map_congr_left fun i _ => ?_⟩
    simp only [Function.comp]
    omega

theorem placeFrom_same (p0 : ObjParticle) : ∀ (qs : List (V3 ℝ)) (id : Nat), ∀ p ∈ placeFrom p0 id qs,
    p.typeId = p0.typeId ∧ p.own = p0.own ∧ p.vel = p0.vel ∧ p.force = p0.force ∧ p.oldForce = p0.oldForce ∧ p.pos ∈ qs
  | [], _, p, hp => by simp [placeFrom] at hp
  | q :: qs, id, p, hp => by
    simp only [placeFrom, List.mem_cons] at hp
    rcases hp with rfl | hp
    · simp
    · obtain ⟨h1, h2, h3, h4, h5, h6⟩ := placeFrom_same p0 qs _ p hp
      exact ⟨h1, h2, h3, h4, h5, List.mem_cons_of_mem _ h6⟩

/-! ### Grid -/

theorem mem_gridPositions {n : V3 Nat} {s : ℝ} {corner p : V3 ℝ} :
    p ∈ gridPositions n ⟨s, s, s⟩ corner ↔ GridPoint n s corner p := by
  simp only [gridPositions, List.mem_flatMap, List.mem_map, List.mem_range, GridPoint]
  constructor
  · rintro ⟨k, hk, j, hj, i, hi, rfl⟩
    exact ⟨i, j, k, hi, hj, hk, by simp only [V3.mk.injEq]; refine ⟨?_, ?_, ?_⟩ <;> ring⟩
  · rintro ⟨i, j, k, hi, hj, hk, rfl⟩
    exact ⟨k, hk, j, hj, i, hi, by simp only [V3.mk.injEq]; refine ⟨?_, ?_, ?_⟩ <;> ring⟩

theorem flatMap_length_const {α β : Type} (l : List α) (f : α → List β) (c : Nat) (h : ∀ a ∈ l, (f a).length = c) :
    (l.flatMap f).length = l.length * c := by
  induction l with
  | nil => simp
  | cons a l ih =>
    rw [List.flatMap_cons, List.length_append, h a (by simp), ih fun b hb => h b (List.mem_cons_of_mem _ hb), List.length_cons]
    ring

theorem gridPositions_length (n : V3 Nat) (s o : V3 ℝ) : (gridPositions n s o).length = n.x * n.y * n.z := by
  unfold gridPositions
  rw [flatMap_length_const _ _ (n.y * n.x), List.length_range]
  · ring
  · intro z _
    rw [flatMap_length_const _ _ n.x, List.length_range]
    intro y _
    simp

theorem gridTotal_eq (n : V3 Nat) (h : n.x < 2 ^ 31) (h2 : n.x * n.y < 2 ^ 31) (h3 : n.x * n.y * n.z < 2 ^ 31) :
    gridTotalStep (gridTotalStep (gridTotalStep (.ok 1) n.x) n.y) n.z = .ok (n.x * n.y * n.z) := by
  norm_num at h h2 h3
  simp [gridTotalStep, Outcome.bind, h, h2, h3]

/-! ### Pairwise distances -/

theorem pairwise_of_nodup {α : Type} {l : List α} {R : α → α → Prop} (hn : l.Nodup) (h : ∀ a ∈ l, ∀ b ∈ l, a ≠ b → R a b) :
    l.Pairwise R := by
  induction l with
  | nil => exact List.Pairwise.nil
  | cons a l ih =>
    rw [List.nodup_cons] at hn
    refine List.Pairwise.cons (fun b hb => h a (by simp) b (List.mem_cons_of_mem _ hb) ?_) (ih hn.2 fun x hx y hy => h x (List.mem_cons_of_mem _ hx) y (List.mem_cons_of_mem _ hy))
    rintro rfl
    exact hn.1 hb

/-- Different integers are at least one apart. -/
theorem one_le_sq_of_ne {a b : Int} (h : a ≠ b) : (1 : ℝ) ≤ ((a : ℝ) - b) ^ 2 := by
  have : (1 : Int) ≤ (a - b) ^ 2 := by
    have h2 : a - b ≠ 0 := sub_ne_zero.2 h
    have := sq_nonneg (a - b)
    have h3 : (a - b) ^ 2 ≠ 0 := pow_ne_zero _ h2
    omega
  have h4 : ((1 : Int) : ℝ) ≤ (((a - b) ^ 2 : Int) : ℝ) := Int.cast_le.2 this
  push_cast at h4
  exact h4

/-- Two different points of a cubic lattice are at least its spacing apart. -/
theorem lattice_dist {s : ℝ} {c : V3 ℝ} {i j k i' j' k' : Int} (h : ¬ (i = i' ∧ j = j' ∧ k = k')) :
    s ^ 2 ≤ dist2 ⟨c.x + s * i, c.y + s * j, c.z + s * k⟩ ⟨c.x + s * i', c.y + s * j', c.z + s * k'⟩ := by
  have he : dist2 ⟨c.x + s * i, c.y + s * j, c.z + s * k⟩ ⟨c.x + s * i', c.y + s * j', c.z + s * k'⟩ =
      s ^ 2 * (((i : ℝ) - i') ^ 2 + ((j : ℝ) - j') ^ 2 + ((k : ℝ) - k') ^ 2) := by
    simp only [dist2]; ring
  rw [he]
  have h0 := sq_nonneg ((i : ℝ) - i')
  have h1 := sq_nonneg ((j : ℝ) - j')
  have h2 := sq_nonneg ((k : ℝ) - k')
  have hk : (1 : ℝ) ≤ ((i : ℝ) - i') ^ 2 + ((j : ℝ) - j') ^ 2 + ((k : ℝ) - k') ^ 2 := by
    by_cases hi : i = i'
    · by_cases hj : j = j'
      · have := one_le_sq_of_ne (a := k) (b := k') fun hk => h ⟨hi, hj, hk⟩
        linarith
      · have := one_le_sq_of_ne hj
        linarith
    · have := one_le_sq_of_ne hi
      linarith
  nlinarith [sq_nonneg s]

theorem gridPositions_nodup {n : V3 Nat} {s : ℝ} (hs : s ≠ 0) (corner : V3 ℝ) : (gridPositions n ⟨s, s, s⟩ corner).Nodup := by
  unfold gridPositions
  refine List.nodup_flatMap.2 ⟨fun z _ => List.nodup_flatMap.2 ⟨fun y _ => ?_, ?_⟩, ?_⟩
  · refine List.Nodup.map ?_ List.nodup_range
    intro a b h
    simp only [V3.mk.injEq] at h
    have := h.1
    have h2 : (a : ℝ) = b := by
      have := add_right_cancel this
      exact mul_right_cancel₀ hs this
    exact_mod_cast h2
  · refine List.Nodup.pairwise_of_forall_ne List.nodup_range ?_
    intro a _ b _ hab
    simp only [Function.onFun, List.disjoint_left, List.mem_map, List.mem_range, not_exists, not_and]
    rintro p ⟨x, _, rfl⟩ x' _ h
    simp only [V3.mk.injEq] at h
    have := add_right_cancel h.2.1
    exact hab (by exact_mod_cast (mul_right_cancel₀ hs this).symm)
  · refine List.Nodup.pairwise_of_forall_ne List.nodup_range ?_
    intro a _ b _ hab
    simp only [Function.onFun, List.disjoint_left, List.mem_flatMap, List.mem_map, List.mem_range, not_exists, not_and]
    rintro p ⟨y, _, x, _, rfl⟩ y' _ x' _ h
    simp only [V3.mk.injEq] at h
    have := add_right_cancel h.2.2
    exact hab (by exact_mod_cast (mul_right_cancel₀ hs this).symm)

theorem gridPositions_distance {n : V3 Nat} {s : ℝ} (hs : s ≠ 0) (corner : V3 ℝ) :
    (gridPositions n ⟨s, s, s⟩ corner).Pairwise fun p q => s ^ 2 ≤ dist2 p q := by
  refine pairwise_of_nodup (gridPositions_nodup hs corner) fun p hp q hq hne => ?_
  obtain ⟨i, j, k, _, _, _, rfl⟩ := mem_gridPositions.1 hp
  obtain ⟨i', j', k', _, _, _, rfl⟩ := mem_gridPositions.1 hq
  have := lattice_dist (s := s) (c := corner) (i := i) (j := j) (k := k) (i' := i') (j' := j') (k' := k') (by
    rintro ⟨h1, h2, h3⟩
    apply hne
    have h1 : i = i' := by exact_mod_cast h1
    have h2 : j = j' := by exact_mod_cast h2
    have h3 : k = k' := by exact_mod_cast h3
    subst h1; subst h2; subst h3; rfl)
  simpa using this

/-! ### Sphere -/

/-- If the elements of the sublists tell which sublist they come from, nothing occurs twice. -/
theorem nodup_flatMap_of_key {α β : Type} {l : List α} {f : α → List β} (key : β → α) (hl : l.Nodup) (hf : ∀ a ∈ l, (f a).Nodup)
    (hk : ∀ a ∈ l, ∀ b ∈ f a, key b = a) : (l.flatMap f).Nodup := by
  refine List.nodup_flatMap.2 ⟨hf, List.Nodup.pairwise_of_forall_ne hl fun a ha b hb hab => ?_⟩
  simp only [Function.onFun, List.disjoint_left]
  intro x hx hx'
  exact hab (by rw [← hk a ha x hx, ← hk b hb x hx'])

theorem forInt_nodup (a b : Int) : (forInt a b).Nodup := by
  refine List.Nodup.map ?_ List.nodup_range
  intro i j h
  simp only at h
  omega

theorem mem_mirrorSigns {x i : Int} : i ∈ mirrorSigns x ↔ i = -1 ∨ (i = 1 ∧ x ≠ 0) := by
  unfold mirrorSigns
  split <;> rename_i h <;> simp [h]

theorem mirrorSigns_nodup (x : Int) : (mirrorSigns x).Nodup := by
  unfold mirrorSigns
  split <;> decide

/-- Every integer of absolute value at most `r` is a coordinate of the octant times a sign. -/
theorem exists_mirror {a r : Int} (h : |a| ≤ r) : ∃ x i, (0 ≤ x ∧ x ≤ r) ∧ i ∈ mirrorSigns x ∧ x * i = a := by
  rcases lt_or_ge 0 a with ha | ha
  · rw [abs_of_pos ha] at h
    exact ⟨a, 1, ⟨by omega, h⟩, mem_mirrorSigns.2 (Or.inr ⟨rfl, by omega⟩), by omega⟩
  · rw [abs_of_nonpos ha] at h
    exact ⟨-a, -1, ⟨by omega, h⟩, mem_mirrorSigns.2 (Or.inl rfl), by omega⟩

theorem mirror_abs {x i r : Int} (hx : 0 ≤ x ∧ x ≤ r) (hi : i ∈ mirrorSigns x) : |x * i| = x := by
  rcases mem_mirrorSigns.1 hi with rfl | ⟨rfl, _⟩
  · rw [show x * (-1) = -x by ring, abs_neg, abs_of_nonneg hx.1]
  · rw [mul_one, abs_of_nonneg hx.1]

theorem mirror_sign {x i r : Int} (hx : 0 ≤ x ∧ x ≤ r) (hi : i ∈ mirrorSigns x) : (if x * i ≤ 0 then (-1 : Int) else 1) = i := by
  rcases mem_mirrorSigns.1 hi with rfl | ⟨rfl, h⟩
  · rw [if_pos (by omega)]
  · rw [if_neg (by omega)]

theorem sphereCoord_eq (c s : ℝ) (x i : Int) : sphereCoord c s x i = c + s * ((x * i : Int) : ℝ) := by
  simp only [sphereCoord]; push_cast; ring

theorem sphere_cond {c : V3 ℝ} {r : Int} {s : ℝ} (hs : s ≠ 0) (a b d : Int) :
    ((c.x + s * a - c.x) * (c.x + s * a - c.x) + (c.y + s * b - c.y) * (c.y + s * b - c.y) +
      (c.z + s * d - c.z) * (c.z + s * d - c.z) ≤ (((r : ℝ) + 1) * s) * (((r : ℝ) + 1) * s)) ↔
    a ^ 2 + b ^ 2 + d ^ 2 ≤ (r + 1) ^ 2 := by
  have hp : 0 < s ^ 2 := by positivity
  have h1 : (c.x + s * a - c.x) * (c.x + s * a - c.x) + (c.y + s * b - c.y) * (c.y + s * b - c.y) +
      (c.z + s * d - c.z) * (c.z + s * d - c.z) = s ^ 2 * (((a ^ 2 + b ^ 2 + d ^ 2 : Int)) : ℝ) := by push_cast; ring
  have h2 : (((r : ℝ) + 1) * s) * (((r : ℝ) + 1) * s) = s ^ 2 * (((r + 1) ^ 2 : Int) : ℝ) := by push_cast; ring
  rw [h1, h2, mul_le_mul_iff_right₀ hp, Int.cast_le]

theorem mem_spherePositions {c : V3 ℝ} {r : Int} {s : ℝ} (hs : s ≠ 0) {p : V3 ℝ} :
    p ∈ spherePositions c r s ↔ SpherePoint c r s p := by
  simp only [spherePositions, List.mem_flatMap, mem_forInt, sphereCoord_eq, SpherePoint]
  constructor
  · rintro ⟨z, hz, y, hy, x, hx, i, hi, k, hk, l, hl, h⟩
    split at h
    · rename_i hc
      rw [List.mem_singleton] at h
      subst h
      refine ⟨x * i, y * k, z * l, ?_, ?_, ?_, (sphere_cond hs _ _ _).1 hc, rfl⟩
      · rw [mirror_abs hx hi]; exact hx.2
      · rw [mirror_abs hy hk]; exact hy.2
      · rw [mirror_abs hz hl]; exact hz.2
    · simp at h
  · rintro ⟨a, b, d, ha, hb, hd, hc, rfl⟩
    obtain ⟨x, i, hx, hi, rfl⟩ := exists_mirror ha
    obtain ⟨y, k, hy, hk, rfl⟩ := exists_mirror hb
    obtain ⟨z, l, hz, hl, rfl⟩ := exists_mirror hd
    refine ⟨z, hz, y, hy, x, hx, i, hi, k, hk, l, hl, ?_⟩
    rw [if_pos ((sphere_cond hs _ _ _).2 hc)]
    simp

/-- The integer coordinate of a point of the sphere. -/
theorem sphere_key {c s : ℝ} (hs : s ≠ 0) (a : Int) : ⌊(c + s * (a : ℝ) - c) / s⌋ = a := by
  rw [add_sub_cancel_left, mul_div_cancel_left₀ _ hs, Int.floor_intCast]

theorem spherePositions_nodup {c : V3 ℝ} {r : Int} {s : ℝ} (hs : s ≠ 0) : (spherePositions c r s).Nodup := by
  unfold spherePositions
  refine nodup_flatMap_of_key (fun p => |⌊(p.z - c.z) / s⌋|) (forInt_nodup _ _) (fun z hz => ?_) ?_
  · refine nodup_flatMap_of_key (fun p => |⌊(p.y - c.y) / s⌋|) (forInt_nodup _ _) (fun y hy => ?_) ?_
    · refine nodup_flatMap_of_key (fun p => |⌊(p.x - c.x) / s⌋|) (forInt_nodup _ _) (fun x hx => ?_) ?_
      · refine nodup_flatMap_of_key (fun p => if ⌊(p.x - c.x) / s⌋ ≤ 0 then (-1 : Int) else 1) (mirrorSigns_nodup _) (fun i hi => ?_) ?_
        · refine nodup_flatMap_of_key (fun p => if ⌊(p.y - c.y) / s⌋ ≤ 0 then (-1 : Int) else 1) (mirrorSigns_nodup _) (fun k hk => ?_) ?_
          · refine nodup_flatMap_of_key (fun p => if ⌊(p.z - c.z) / s⌋ ≤ 0 then (-1 : Int) else 1) (mirrorSigns_nodup _) (fun l hl => ?_) ?_
            · dsimp only
              split <;> simp
            · intro l hl p hp
              dsimp only at hp
              split at hp
              · rw [List.mem_singleton] at hp
                subst hp
                simp only [sphereCoord_eq, sphere_key hs]
                exact mirror_sign (mem_forInt.1 hz) hl
              · simp at hp
          · intro k hk p hp
            simp only [List.mem_flatMap] at hp
            obtain ⟨l, hl, hp⟩ := hp
            split at hp
            · rw [List.mem_singleton] at hp
              subst hp
              simp only [sphereCoord_eq, sphere_key hs]
              exact mirror_sign (mem_forInt.1 hy) hk
            · simp at hp
        · intro i hi p hp
          simp only [List.mem_flatMap] at hp
          obtain ⟨k, hk, l, hl, hp⟩ := hp
          split at hp
          · rw [List.mem_singleton] at hp
            subst hp
            simp only [sphereCoord_eq, sphere_key hs]
            exact mirror_sign (mem_forInt.1 hx) hi
          · simp at hp
      · intro x hx p hp
        simp only [List.mem_flatMap] at hp
        obtain ⟨i, hi, k, hk, l, hl, hp⟩ := hp
        split at hp
        · rw [List.mem_singleton] at hp
          subst hp
          simp only [sphereCoord_eq, sphere_key hs]
          exact mirror_abs (mem_forInt.1 hx) hi
        · simp at hp
    · intro y hy p hp
      simp only [List.mem_flatMap] at hp
      obtain ⟨x, hx, i, hi, k, hk, l, hl, hp⟩ := hp
      split at hp
      · rw [List.mem_singleton] at hp
        subst hp
        simp only [sphereCoord_eq, sphere_key hs]
        exact mirror_abs (mem_forInt.1 hy) hk
      · simp at hp
  · intro z hz p hp
    simp only [List.mem_flatMap] at hp
    obtain ⟨y, hy, x, hx, i, hi, k, hk, l, hl, hp⟩ := hp
    split at hp
    · rw [List.mem_singleton] at hp
      subst hp
      simp only [sphereCoord_eq, sphere_key hs]
      exact mirror_abs (mem_forInt.1 hz) hl
    · simp at hp

theorem spherePositions_distance {c : V3 ℝ} {r : Int} {s : ℝ} (hs : s ≠ 0) :
    (spherePositions c r s).Pairwise fun p q => s ^ 2 ≤ dist2 p q := by
  refine pairwise_of_nodup (spherePositions_nodup hs) fun p hp q hq hne => ?_
  obtain ⟨i, j, k, _, _, _, _, rfl⟩ := (mem_spherePositions hs).1 hp
  obtain ⟨i', j', k', _, _, _, _, rfl⟩ := (mem_spherePositions hs).1 hq
  refine lattice_dist ?_
  rintro ⟨rfl, rfl, rfl⟩
  exact hne rfl

end Verif
