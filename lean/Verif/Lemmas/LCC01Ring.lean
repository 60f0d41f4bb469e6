import Verif.Lemmas.LCC01Combined
import Verif.Lemmas.LCWhole
import Verif.Lemmas.Remainder
import Mathlib.Data.List.GetD
/-! The ring of buffers of `lc_c01_combined_SoA`. -/
namespace Verif
open Spec

theorem ringUntil_eq {n : Nat} (m : Nat) : ∀ (a fuel : Nat), m < n → m ≤ fuel →
    ringUntil n ((a + m) % n) fuel (a % n) = (List.range m).map fun j => (a + j) % n := by
  induction m with
  | zero =>
    intro a fuel _ _
    cases fuel <;> simp [ringUntil]
  | succ m ih =>
    intro a fuel hm hf
    obtain ⟨fuel, rfl⟩ : ∃ f, fuel = f + 1 := ⟨fuel - 1, by omega⟩
    unfold ringUntil
    have hne : a % n ≠ (a + (m + 1)) % n := by
      intro h
      have h1 : (a + (m + 1)) ≡ a [MOD n] := h.symm
      have h2 : (m + 1) ≡ 0 [MOD n] := Nat.ModEq.add_left_cancel' a (by simpa using h1)
      have h3 : n ∣ m + 1 := (Nat.modEq_zero_iff_dvd).1 h2
      exact absurd (Nat.le_of_dvd (by omega) h3) (by omega)
    rw [if_neg hne]
    have e : (a % n + 1) % n = (a + 1) % n := by simp
    have e2 : (a + (m + 1)) % n = (a + 1 + m) % n := by congr 1; omega
    rw [e, e2, ih (a + 1) fuel (by omega) (by omega), List.range_succ_eq_map, List.map_cons, List.map_map]
    congr 1
    apply List.map_congr_left
    intro j _
    simp only [Function.comp]
    congr 1; omega

theorem mod_shift_ne {n a i j : Nat} (hi : i < n) (hj : j < n) (hij : i ≠ j) : (a + i) % n ≠ (a + j) % n := by
  intro h
  have h2 : i ≡ j [MOD n] := Nat.ModEq.add_left_cancel' a h
  have h3 : i % n = j % n := h2
  rw [Nat.mod_eq_of_lt hi, Nat.mod_eq_of_lt hj] at h3
  exact hij h3

section
variable {X : Type}

/-- A loop over consecutive places of a ring that changes every place. -/
theorem ringFold {n : Nat} (hn : 0 < n) (g : Nat → List X → List X) (a i0 m : Nat) (hm : m ≤ n) (s : List (List X)) (hs : s.length = n) :
    let R := ((List.range m).map fun j => ((a + j) % n, i0 + j)).foldl
      (fun (s : List (List X)) (e : Nat × Nat) => s.set e.1 (g e.2 (s.getD e.1 []))) s
    R.length = n ∧ (∀ j < m, R.getD ((a + j) % n) [] = g (i0 + j) (s.getD ((a + j) % n) [])) ∧
      (∀ k, (∀ j < m, k ≠ (a + j) % n) → R.getD k [] = s.getD k []) := by
  induction m with
  | zero => exact ⟨by simpa using hs, fun j hj => absurd hj (by omega), fun k _ => by simp⟩
  | succ m ih =>
    obtain ⟨h1, h2, h3⟩ := ih (by omega)
    intro R
    have hR : R = ((List.range (m + 1)).map fun j => ((a + j) % n, i0 + j)).foldl
      (fun (s : List (List X)) (e : Nat × Nat) => s.set e.1 (g e.2 (s.getD e.1 []))) s := rfl
    rw [List.range_succ, List.map_append, List.foldl_append] at hR
    clear_value R
    simp only [List.map_cons, List.map_nil, List.foldl_cons, List.foldl_nil] at hR
    generalize ((List.range m).map fun j => ((a + j) % n, i0 + j)).foldl
      (fun (s : List (List X)) (e : Nat × Nat) => s.set e.1 (g e.2 (s.getD e.1 []))) s = R' at *
    have hlt : (a + m) % n < n := Nat.mod_lt _ hn
    have hget : ∀ k, R.getD k [] = if k = (a + m) % n then g (i0 + m) (s.getD ((a + m) % n) []) else R'.getD k [] := by
      intro k
      rw [hR, List.getD_eq_getElem?_getD, List.getElem?_set]
      by_cases hk : (a + m) % n = k
      · subst hk
        rw [if_pos rfl, if_pos rfl, if_pos (by omega), h3 _ (fun j hj => mod_shift_ne (by omega) (by omega) (by omega))]
        rfl
      · rw [if_neg hk, if_neg (fun h => hk h.symm), List.getD_eq_getElem?_getD]
    refine ⟨by rw [hR, List.length_set, h1], ?_, ?_⟩
    · intro j hj
      rw [hget]
      by_cases hjm : j = m
      · subst hjm
        rw [if_pos rfl]
      · rw [if_neg (mod_shift_ne (by omega) (by omega) hjm), h2 j (by omega)]
    · intro k hk
      rw [hget, if_neg (hk m (by omega)), h3 k (fun j hj => hk j (by omega))]

end

section
variable {P : Type} {cells : List (PCell P)} {dims : V3 Nat} {cl : V3 Rat} {il : Rat}

/-- The particles of a column of cells. -/
def column (cells : List (PCell P)) (dims : V3 Nat) (c : Int) (L : List (Int × Int)) : List P :=
  L.flatMap fun p => (cellAt cells (c + c01Flat dims (0, p))).particles

theorem append_eq_column {base x : Int} {l : List (Int × Int × Int)} (h : ∀ e ∈ l, e.1 = x) :
    c01Append cells dims base l = column cells dims (base + x) (l.map Prod.snd) := by
  unfold c01Append column
  rw [List.flatMap_map]
  apply List.flatMap_congr
  intro e he
  congr 2
  unfold c01Flat threeToOneDInt
  rw [h e he]
  ring

theorem size_eq_length {base : Int} {l : List (Int × Int × Int)} :
    c01Size cells dims base l = (c01Append cells dims base l).length := by
  unfold c01Size c01Append
  rw [List.length_flatMap]

theorem take_column {c : Int} {L L' : List (Int × Int)} (h : L <+: L') :
    (column cells dims c L').take (column cells dims c L).length = column cells dims c L := by
  obtain ⟨E, rfl⟩ := h
  unfold column
  rw [List.flatMap_append, List.take_left]

theorem length_column_le {c : Int} {L L' : List (Int × Int)} (h : L <+: L') :
    (column cells dims c L).length ≤ (column cells dims c L').length := by
  obtain ⟨E, rfl⟩ := h
  unfold column
  rw [List.flatMap_append, List.length_append]
  omega

theorem column_append_drop {c : Int} {L L' : List (Int × Int)} (h : L <+: L') :
    column cells dims c L ++ column cells dims c (L'.drop L.length) = column cells dims c L' := by
  obtain ⟨E, rfl⟩ := h
  unfold column
  rw [List.drop_left, List.flatMap_append]

/-- The buffers hold the particles around the base cell. -/
structure RingOk (cells : List (PCell P)) (dims : V3 Nat) (cl : V3 Rat) (il : Rat) (base : Int) (r : C01Ring P) : Prop where
  current : r.current < 2 * (overlapOf il cl).x.toNat + 1
  length : r.slots.length = 2 * (overlapOf il cl).x.toNat + 1
  slot : ∀ k < 2 * (overlapOf il cl).x.toNat + 1, r.slots.getD ((r.current + k) % (2 * (overlapOf il cl).x.toNat + 1)) [] =
    c01Append cells dims base (c01Slices dims cl il k)

theorem ringOk_init (base : Int) : RingOk cells dims cl il base
    (c01RingInit cells dims (c01Slices dims cl il) (2 * (overlapOf il cl).x.toNat + 1) base) := by
  refine ⟨Nat.succ_pos _, by simp [c01RingInit], ?_⟩
  intro k hk
  simp only [c01RingInit, Nat.zero_add]
  rw [Nat.mod_eq_of_lt hk, List.getD_eq_getElem _ _ (by simpa using hk)]
  simp

theorem slice_column (h : C18Dims dims cl il) (base : Int) (k : Nat) : c01Append cells dims base (c01Slices dims cl il k) =
    column cells dims (base + (k - (overlapOf il cl).x)) ((c01Slices dims cl il k).map Prod.snd) :=
  append_eq_column fun _ he => c01Slices_x h he

private theorem shift_slots [Inhabited P] {ov : Nat} {slices : C01Slices} {base : Int} {r : C01Ring P}
    (hcur : r.current < 2 * ov + 1) (hlen : r.slots.length = 2 * ov + 1)
    (hX : ∀ k, ∀ e ∈ slices k, e.1 = (k : Int) - ov)
    (hR : ∀ k, ov ≤ k → (slices (k + 1)).map Prod.snd <+: (slices k).map Prod.snd)
    (hL : ∀ k, k < ov → (slices k).map Prod.snd <+: (slices (k + 1)).map Prod.snd)
    (hslot : ∀ k < 2 * ov + 1, r.slots.getD ((r.current + k) % (2 * ov + 1)) [] = c01Append cells dims base (slices k)) :
    let r' := c01RingShift cells dims slices ov (2 * ov + 1) (base + 1) r
    r'.current < 2 * ov + 1 ∧ r'.slots.length = 2 * ov + 1 ∧
      ∀ k < 2 * ov + 1, r'.slots.getD ((r'.current + k) % (2 * ov + 1)) [] = c01Append cells dims (base + 1) (slices k) := by
  have hS : ∀ b k, c01Append cells dims b (slices k) = column cells dims (b + (k - ov)) ((slices k).map Prod.snd) :=
    fun b k => append_eq_column (hX k)
  have hn : 0 < 2 * ov + 1 := Nat.succ_pos _
  have e1 : ringUntil (2 * ov + 1) ((r.current + ov + 1) % (2 * ov + 1)) (2 * ov + 1) ((r.current + 1) % (2 * ov + 1)) =
      (List.range ov).map fun j => (r.current + 1 + j) % (2 * ov + 1) := by
    have := ringUntil_eq (n := 2 * ov + 1) ov (r.current + 1) (2 * ov + 1) (by omega) (by omega)
    rw [← this]
    congr 2
    omega
  have e2 : ringUntil (2 * ov + 1) r.current (2 * ov + 1) ((r.current + ov + 1) % (2 * ov + 1)) =
      (List.range ov).map fun j => (r.current + ov + 1 + j) % (2 * ov + 1) := by
    have := ringUntil_eq (n := 2 * ov + 1) ov (r.current + ov + 1) (2 * ov + 1) (by omega) (by omega)
    rw [← this]
    congr 1
    rw [show r.current + ov + 1 + ov = r.current + (2 * ov + 1) by omega, Nat.add_mod_right, Nat.mod_eq_of_lt hcur]
  have z : ∀ (g : Nat → Nat) (m i0 : Nat), ((List.range m).map g).zipIdx i0 = (List.range m).map fun j => (g j, i0 + j) := by
    intro g m i0
    apply List.ext_getElem <;> simp
  unfold c01RingShift
  simp only [e1, e2, z, List.length_map, List.length_range]
  obtain ⟨a1, a2, a3⟩ := ringFold hn (fun i l => vectorResize l (c01Size cells dims (base + 1) (slices i)) default) (r.current + 1) 0 ov
    (by omega) r.slots hlen
  obtain ⟨b1, b2, b3⟩ := ringFold hn (fun i l => l ++ c01Append cells dims (base + 1)
    ((slices i).drop (slices ((i + 1) % (2 * ov + 1))).length)) (r.current + ov + 1) ov ov (by omega) _ a1
  unfold c01RingExtend c01RingReduce
  refine ⟨Nat.mod_lt _ hn, by rw [List.length_set]; exact b1, ?_⟩
  intro k hk
  have hplace : ((r.current + 1) % (2 * ov + 1) + k) % (2 * ov + 1) = (r.current + (k + 1)) % (2 * ov + 1) := by
    rw [Nat.mod_add_mod]; congr 1; omega
  rw [hplace, List.getD_eq_getElem?_getD, List.getElem?_set]
  by_cases hk2 : k = 2 * ov
  · subst hk2
    have : r.current = (r.current + (2 * ov + 1)) % (2 * ov + 1) := by rw [Nat.add_mod_right, Nat.mod_eq_of_lt hcur]
    rw [if_pos this, if_pos (by rw [b1]; exact hcur)]
    rfl
  · have hne : r.current ≠ (r.current + (k + 1)) % (2 * ov + 1) := by
      have := mod_shift_ne (n := 2 * ov + 1) (a := r.current) (i := 0) (j := k + 1) (by omega) (by omega) (by omega)
      rwa [Nat.add_zero, Nat.mod_eq_of_lt hcur] at this
    rw [if_neg hne, ← List.getD_eq_getElem?_getD]
    have hold : r.slots.getD ((r.current + (k + 1)) % (2 * ov + 1)) [] =
        column cells dims (base + 1 + (k - ov)) ((slices (k + 1)).map Prod.snd) := by
      rw [hslot (k + 1) (by omega), hS]
      congr 1
      push_cast
      ring
    by_cases hko : k < ov
    · have pl : (r.current + (k + 1)) % (2 * ov + 1) = (r.current + 1 + k) % (2 * ov + 1) := by congr 1; omega
      rw [pl] at hold ⊢
      rw [b3, a2 k hko, hold, Nat.zero_add, hS, size_eq_length, hS]
      · unfold vectorResize
        rw [take_column (hL k hko), Nat.sub_eq_zero_of_le (length_column_le (hL k hko))]
        simp
      · intro j hj
        rw [show r.current + 1 + k = r.current + (1 + k) by omega, show r.current + ov + 1 + j = r.current + (ov + 1 + j) by omega]
        exact mod_shift_ne (by omega) (by omega) (by omega)
    · obtain ⟨j, rfl⟩ : ∃ j, k = ov + j := ⟨k - ov, by omega⟩
      have pl : (r.current + (ov + j + 1)) % (2 * ov + 1) = (r.current + ov + 1 + j) % (2 * ov + 1) := by congr 1; omega
      rw [pl] at hold ⊢
      rw [b2 j (by omega), a3, hold, hS, Nat.mod_eq_of_lt (by omega : ov + j + 1 < 2 * ov + 1)]
      · rw [append_eq_column (x := ((ov + j : Nat) : Int) - ov) (fun e he => hX _ e (List.mem_of_mem_drop he)), List.map_drop]
        have := column_append_drop (cells := cells) (dims := dims) (c := base + 1 + (((ov + j : Nat) : Int) - ov)) (hR (ov + j) (by omega))
        rw [List.length_map] at this
        exact this
      · intro i hi
        rw [show r.current + ov + 1 + j = r.current + (ov + 1 + j) by omega, show r.current + 1 + i = r.current + (1 + i) by omega]
        exact mod_shift_ne (by omega) (by omega) (by omega)

theorem ringOk_shift [Inhabited P] (h : C18Dims dims cl il) {base : Int} {r : C01Ring P} (hr : RingOk cells dims cl il base r) :
    RingOk cells dims cl il (base + 1)
      (c01RingShift cells dims (c01Slices dims cl il) (overlapOf il cl).x.toNat (2 * (overlapOf il cl).x.toNat + 1) (base + 1) r) := by
  have hov : (overlapOf il cl).x = ((overlapOf il cl).x.toNat : Int) := by have := h.pos.ov; omega
  obtain ⟨h1, h2, h3⟩ := shift_slots hr.current hr.length (fun k e he => by rw [← hov]; exact c01Slices_x h he)
    (fun k hk => c01Slices_right h hk) (fun k hk => c01Slices_left h hk) hr.slot
  exact ⟨h1, h2, h3⟩

end

end Verif
