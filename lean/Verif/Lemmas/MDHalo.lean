import Verif.Spec.MDDomain
import Verif.Spec.Iteration
import Mathlib.Data.List.Nodup
import Mathlib.Data.List.Perm.Basic
import Mathlib.Data.List.Flatten
import Mathlib.Tactic.Linarith
import Mathlib.Tactic.Ring
import Mathlib.Tactic.Push
/-!
The halo exchange of md-flexible, dimension by dimension.
-/
namespace Verif
open Spec

@[simp] theorem at_put_self {α : Type _} (v : V3 α) (d : Axis) (a : α) : (v.put d a).at d = a := by cases d <;> rfl
theorem at_put_ne {α : Type _} (v : V3 α) {d e : Axis} (a : α) (h : e ≠ d) : (v.put d a).at e = v.at e := by
  cases d <;> cases e <;> first | rfl | exact absurd rfl h
theorem v3_ext_at {α : Type _} {u v : V3 α} (h : ∀ d : Axis, u.at d = v.at d) : u = v := by
  cases u; cases v
  have h1 := h .x; have h2 := h .y; have h3 := h .z
  simp only [V3.at] at h1 h2 h3
  rw [h1, h2, h3]
@[simp] theorem put_at {α : Type _} (v : V3 α) (d : Axis) : v.put d (v.at d) = v := by cases d <;> rfl
@[simp] theorem put_put {α : Type _} (v : V3 α) (d : Axis) (a b : α) : (v.put d a).put d b = v.put d b := by cases d <;> rfl

theorem isRank_iff {D : RGD} {r : V3 Nat} : IsRank D r ↔ ∀ d : Axis, r.at d < D.dec.at d :=
  ⟨fun h d => by cases d; exacts [h.1, h.2.1, h.2.2], fun h => ⟨h .x, h .y, h .z⟩⟩

theorem isRank_put {D : RGD} {r : V3 Nat} (h : IsRank D r) {d : Axis} {j : Nat} (hj : j < D.dec.at d) : IsRank D (r.put d j) := by
  rw [isRank_iff] at h ⊢
  intro e
  by_cases he : e = d
  · subst he; simpa using hj
  · rw [at_put_ne _ _ he]; exact h e

@[simp] theorem shift_at (p : Particle) (d : Axis) (v : Rat) : (p.shift d v).pos.at d = p.pos.at d + v := by simp [Particle.shift]
theorem shift_at_ne (p : Particle) {d e : Axis} (v : Rat) (h : e ≠ d) : (p.shift d v).pos.at e = p.pos.at e := by
  simp [Particle.shift, at_put_ne _ _ h]
@[simp] theorem shift_zero (p : Particle) (d : Axis) : p.shift d 0 = p := by simp [Particle.shift]

/-- The coordinate lies in the local interval of rank `r`. -/
def locB (D : RGD) (d : Axis) (r : V3 Nat) (p : Particle) : Bool :=
  decide ((D.lo r).at d ≤ p.pos.at d) && decide (p.pos.at d < (D.hi r).at d)

/-- The coordinate lies in the widened local interval of rank `r`. -/
def extB (D : RGD) (d : Axis) (r : V3 Nat) (p : Particle) : Bool :=
  decide ((D.lo r).at d - reach D ≤ p.pos.at d) && decide (p.pos.at d < (D.hi r).at d + reach D)

/-- The images along one dimension that matter for rank `r`. -/
def imgs (D : RGD) (d : Axis) (r : V3 Nat) (p : Particle) : List Particle :=
  ((shifts (D.boundary.at d)).map fun k : Int => p.shift d ((k : Rat) * D.length d)).filter (extB D d r)

/-- Only the first and the last domain are taken to be at the ends of the global box. -/
structure Sharp (D : RGD) : Prop where
  min : ∀ r, IsRank D r → ∀ d, D.atMin d r = decide (r.at d = 0)
  max : ∀ r, IsRank D r → ∀ d, D.atMax d r = decide (r.at d + 1 = D.dec.at d)

variable {D : RGD} {cut : Axis → Nat → Rat} {w : Rat}

theorem cut_mono (h : Tiling D cut w) (hw : 0 ≤ w) {d : Axis} {i j : Nat} (hij : i ≤ j) (hj : j ≤ D.dec.at d) : cut d i ≤ cut d j := by
  induction j, hij using Nat.le_induction with
  | base => exact le_refl _
  | succ j hij ih =>
    have h1 := ih (by omega)
    have h2 := h.wide d j (by omega)
    linarith

theorem left_at {r : V3 Nat} (hr : IsRank D r) (d : Axis) :
    D.left d r = r.put d (if r.at d = 0 then D.dec.at d - 1 else r.at d - 1) := by
  have h := isRank_iff.1 hr d
  unfold RGD.left
  congr 1
  by_cases h0 : r.at d = 0
  · rw [if_pos h0, h0, Nat.zero_add]; exact Nat.mod_eq_of_lt (by omega)
  · rw [if_neg h0, show r.at d + D.dec.at d - 1 = (r.at d - 1) + D.dec.at d by omega, Nat.add_mod_right]
    exact Nat.mod_eq_of_lt (by omega)

theorem right_at {r : V3 Nat} (hr : IsRank D r) (d : Axis) :
    D.right d r = r.put d (if r.at d + 1 = D.dec.at d then 0 else r.at d + 1) := by
  have h := isRank_iff.1 hr d
  unfold RGD.right
  congr 1
  rw [Nat.add_mod_right]
  by_cases h0 : r.at d + 1 = D.dec.at d
  · rw [if_pos h0, h0, Nat.mod_self]
  · rw [if_neg h0]; exact Nat.mod_eq_of_lt (by omega)

theorem isRank_left {r : V3 Nat} (hr : IsRank D r) (d : Axis) : IsRank D (D.left d r) := by
  rw [left_at hr]
  have h := isRank_iff.1 hr d
  refine isRank_put hr ?_
  split <;> omega

theorem isRank_right {r : V3 Nat} (hr : IsRank D r) (d : Axis) : IsRank D (D.right d r) := by
  rw [right_at hr]
  have h := isRank_iff.1 hr d
  refine isRank_put hr ?_
  split <;> omega

/-- What a rank receives in one round, whoever its neighbours are. -/
theorem exchange_perm {r : V3 Nat} (hr : IsRank D r) (d : Axis) (toLeft toRight : V3 Nat → List Particle) :
    (D.exchange d toLeft toRight r).Perm (toRight (D.left d r) ++ toLeft (D.right d r)) := by
  have hd := isRank_iff.1 hr d
  unfold RGD.exchange
  by_cases h1 : D.left d r = r
  · rw [if_pos h1]
    have h2 : D.right d r = r := by
      rw [left_at hr] at h1
      have := congrArg (fun v => v.at d) h1
      simp only [at_put_self] at this
      rw [right_at hr]
      have hn : D.dec.at d = 1 := by split at this <;> omega
      rw [if_pos (by omega)]
      conv_rhs => rw [← put_at r d]
      congr 1
      omega
    rw [h1, h2]; exact List.perm_append_comm
  · rw [if_neg h1]
    by_cases h2 : D.left d r = D.right d r
    · rw [if_pos h2, ← h2]; exact List.perm_append_comm
    · rw [if_neg h2]

/-- One particle, one dimension: the rank's own, what comes from the left and what comes from the right are the images within
reach. -/
theorem imgs_perm (h : Tiling D cut (reach D)) (hw : 0 < reach D) {d : Axis} {r : V3 Nat} (hr : IsRank D r) {p : Particle}
    (hp1 : D.gMin.at d ≤ p.pos.at d) (hp2 : p.pos.at d < D.gMax.at d) :
    (imgs D d r p).Perm
      ((if locB D d r p then [p] else []) ++
      ((if (locB D d (D.left d r) p && decide ((D.hi (D.left d r)).at d - reach D ≤ p.pos.at d)) ∧
          (D.boundary.at d = .periodic ∨ r.at d ≠ 0) then [if r.at d = 0 then p.shift d (-D.length d) else p] else []) ++
       (if (locB D d (D.right d r) p && decide (p.pos.at d < (D.lo (D.right d r)).at d + reach D)) ∧
          (D.boundary.at d = .periodic ∨ r.at d + 1 ≠ D.dec.at d) then
          [if r.at d + 1 = D.dec.at d then p.shift d (D.length d) else p] else []))) := by
  have hd := isRank_iff.1 hr d
  have hL := isRank_left hr d
  have hR := isRank_right hr d
  have hle := fun {i j : Nat} (a : i ≤ j) (b : j ≤ D.dec.at d) => cut_mono h hw.le (d := d) a b
  have hlen : D.length d = D.gMax.at d - D.gMin.at d := rfl
  generalize hx : p.pos.at d = x at hp1 hp2 ⊢
  have key : imgs D d r p =
      (if D.boundary.at d = .periodic ∧ (r.at d = 0 ∧ D.gMax.at d - reach D ≤ x) then [p.shift d (-D.length d)] else []) ++
      ((if cut d (r.at d) - reach D ≤ x ∧ x < cut d (r.at d + 1) + reach D then [p] else []) ++
      (if D.boundary.at d = .periodic ∧ (r.at d + 1 = D.dec.at d ∧ x < D.gMin.at d + reach D) then [p.shift d (D.length d)] else [])) := by
    have e1 : extB D d r p = decide (cut d (r.at d) - reach D ≤ x ∧ x < cut d (r.at d + 1) + reach D) := by
      unfold extB; rw [h.lo r hr, h.hi r hr, hx]; simp
    have e2 : extB D d r (p.shift d (-D.length d)) = decide (r.at d = 0 ∧ D.gMax.at d - reach D ≤ x) := by
      unfold extB; rw [h.lo r hr, h.hi r hr, shift_at, hx, hlen, ← Bool.decide_and]
      apply decide_eq_decide.2
      have a1 := hle (Nat.zero_le (r.at d)) hd.le
      have a2 := h.wide d (r.at d) hd
      have a3 := h.first d
      constructor
      · rintro ⟨b1, b2⟩
        by_cases h0 : r.at d = 0
        · rw [h0, a3] at b1; exact ⟨h0, by linarith⟩
        · have a4 := hle (show 1 ≤ r.at d by omega) hd.le
          have a5 := h.wide d 0 (by omega)
          linarith
      · rintro ⟨b1, b2⟩
        rw [b1, a3]; rw [b1, a3] at a2
        constructor <;> linarith
    have e3 : extB D d r (p.shift d (D.length d)) = decide (r.at d + 1 = D.dec.at d ∧ x < D.gMin.at d + reach D) := by
      unfold extB; rw [h.lo r hr, h.hi r hr, shift_at, hx, hlen, ← Bool.decide_and]
      apply decide_eq_decide.2
      have a1 := hle (Nat.succ_le_of_lt hd) le_rfl
      have a2 := h.wide d (r.at d) hd
      have a3 := h.last d
      constructor
      · rintro ⟨b1, b2⟩
        by_cases h0 : r.at d + 1 = D.dec.at d
        · rw [h0, a3] at b2; exact ⟨h0, by linarith⟩
        · have a4 := hle (show r.at d + 1 ≤ D.dec.at d - 1 by omega) (by omega)
          have a5 := h.wide d (D.dec.at d - 1) (by omega)
          rw [show D.dec.at d - 1 + 1 = D.dec.at d by omega] at a5
          linarith
      · rintro ⟨b1, b2⟩
        rw [b1, a3]; rw [b1, a3] at a2
        constructor <;> linarith
    unfold imgs
    by_cases hb : D.boundary.at d = .periodic
    · simp only [hb, shifts, List.map_cons, List.map_nil, true_and]
      rw [show ((-1 : Int) : Rat) * D.length d = -D.length d by push_cast; ring, show ((0 : Int) : Rat) * D.length d = 0 by push_cast; ring,
        show ((1 : Int) : Rat) * D.length d = D.length d by push_cast; ring, shift_zero]
      simp only [List.filter_cons, List.filter_nil, e1, e2, e3, decide_eq_true_eq]
      split <;> split <;> split <;> rfl
    · have hs : shifts (D.boundary.at d) = [0] := by
        cases hq : D.boundary.at d with
        | periodic => exact absurd hq hb
        | reflective => rfl
        | none => rfl
      simp only [hb, hs, List.map_cons, List.map_nil, false_and, if_false, List.nil_append, List.append_nil]
      rw [show ((0 : Int) : Rat) * D.length d = 0 by push_cast; ring, shift_zero]
      simp only [List.filter_cons, List.filter_nil, e1, decide_eq_true_eq]
  rw [key]
  have cB : (locB D d r p = true) ↔ (cut d (r.at d) ≤ x ∧ x < cut d (r.at d + 1)) := by
    unfold locB; rw [h.lo r hr, h.hi r hr, hx]; simp
  have cL : ((locB D d (D.left d r) p && decide ((D.hi (D.left d r)).at d - reach D ≤ x)) = true) ↔
      (if r.at d = 0 then D.gMax.at d - reach D ≤ x else cut d (r.at d) - reach D ≤ x ∧ x < cut d (r.at d)) := by
    unfold locB; rw [h.lo _ hL, h.hi _ hL, hx, left_at hr]
    simp only [at_put_self, Bool.and_eq_true, decide_eq_true_eq]
    by_cases h0 : r.at d = 0
    · rw [if_pos h0, if_pos h0, show D.dec.at d - 1 + 1 = D.dec.at d by omega, h.last d]
      have a5 := h.wide d (D.dec.at d - 1) (by omega)
      rw [show D.dec.at d - 1 + 1 = D.dec.at d by omega, h.last d] at a5
      constructor
      · rintro ⟨_, a⟩; exact a
      · intro a; exact ⟨⟨by linarith, hp2⟩, a⟩
    · rw [if_neg h0, if_neg h0, show r.at d - 1 + 1 = r.at d by omega]
      have a5 := h.wide d (r.at d - 1) (by omega)
      rw [show r.at d - 1 + 1 = r.at d by omega] at a5
      constructor
      · rintro ⟨⟨_, b⟩, a⟩; exact ⟨a, b⟩
      · rintro ⟨a, b⟩; exact ⟨⟨by linarith, b⟩, a⟩
  have cR : ((locB D d (D.right d r) p && decide (x < (D.lo (D.right d r)).at d + reach D)) = true) ↔
      (if r.at d + 1 = D.dec.at d then x < D.gMin.at d + reach D else cut d (r.at d + 1) ≤ x ∧ x < cut d (r.at d + 1) + reach D) := by
    unfold locB; rw [h.lo _ hR, h.hi _ hR, hx, right_at hr]
    simp only [at_put_self, Bool.and_eq_true, decide_eq_true_eq]
    by_cases h0 : r.at d + 1 = D.dec.at d
    · rw [if_pos h0, if_pos h0, h.first d]
      have a5 := h.wide d 0 (by omega)
      rw [h.first d] at a5
      constructor
      · rintro ⟨_, a⟩; exact a
      · intro a; exact ⟨⟨hp1, by linarith⟩, a⟩
    · rw [if_neg h0, if_neg h0]
      have a5 := h.wide d (r.at d + 1) (by omega)
      constructor
      · rintro ⟨⟨b, _⟩, a⟩; exact ⟨b, a⟩
      · rintro ⟨a, b⟩; exact ⟨⟨a, by linarith⟩, b⟩
  have hx1 := hle (Nat.zero_le (r.at d)) hd.le
  have hx2 := hle (Nat.succ_le_of_lt hd) le_rfl
  have hx3 := h.wide d (r.at d) hd
  rw [h.first d] at hx1
  rw [h.last d, Nat.succ_eq_add_one] at hx2
  have comm : ∀ P Q : Prop, (P ∧ Q) = (Q ∧ P) := fun P Q => propext and_comm
  generalize hc0 : cut d (r.at d) = c0 at *
  generalize hc1 : cut d (r.at d + 1) = c1 at *
  simp only [cB, cL, cR]
  by_cases h0 : r.at d = 0 <;> by_cases h1 : r.at d + 1 = D.dec.at d
  · have q0 : c0 = D.gMin.at d := by rw [← hc0, h0, h.first]
    have q1 : c1 = D.gMax.at d := by rw [← hc1, h1, h.last]
    have t1 : c0 ≤ x ∧ x < c1 := by rw [q0, q1]; exact ⟨hp1, hp2⟩
    have t2 : c0 - reach D ≤ x ∧ x < c1 + reach D := by constructor <;> linarith [t1.1, t1.2]
    simp only [h0, h1, if_true, ne_eq, not_true_eq_false, or_false, true_and, if_pos t1, if_pos t2, comm (D.boundary.at d = .periodic)]
    simp only [show 0 + 1 = D.dec.at d by omega, if_true, not_true_eq_false, or_false, true_and]
    split <;> split
    · exact List.Perm.swap _ _ _
    · exact List.Perm.swap _ _ _
    · exact List.Perm.refl _
    · exact List.Perm.refl _
  · have q0 : c0 = D.gMin.at d := by rw [← hc0, h0, h.first]
    have e1 : (c0 ≤ x ∧ x < c1) = (x < c1) := propext ⟨fun h => h.2, fun h => ⟨by rw [q0]; exact hp1, h⟩⟩
    have e2 : (c0 - reach D ≤ x ∧ x < c1 + reach D) = (x < c1 + reach D) :=
      propext ⟨fun h => h.2, fun h => ⟨by rw [q0]; linarith, h⟩⟩
    have h1' : ¬ 0 + 1 = D.dec.at d := by rw [← h0]; exact h1
    simp only [e1, e2, h0, h1', if_true, if_false, ne_eq, not_true_eq_false, not_false_eq_true, or_false, or_true, true_and, and_true, false_and, and_false,
      comm (D.boundary.at d = .periodic), List.append_nil]
    by_cases t : x < c1
    · rw [if_pos t, if_pos (show x < c1 + reach D by linarith), if_neg (show ¬ (c1 ≤ x ∧ x < c1 + reach D) from fun h => by linarith [h.1]), List.append_nil]
      exact List.perm_append_comm
    · have e3 : (c1 ≤ x ∧ x < c1 + reach D) = (x < c1 + reach D) := propext ⟨fun h => h.2, fun h => ⟨by linarith, h⟩⟩
      simp only [if_neg t, e3, List.nil_append]
      exact List.Perm.refl _
  · have q1 : c1 = D.gMax.at d := by rw [← hc1, h1, h.last]
    have e1 : (c0 ≤ x ∧ x < c1) = (c0 ≤ x) := propext ⟨fun h => h.1, fun h => ⟨h, by rw [q1]; exact hp2⟩⟩
    have e2 : (c0 - reach D ≤ x ∧ x < c1 + reach D) = (c0 - reach D ≤ x) :=
      propext ⟨fun h => h.1, fun h => ⟨h, by rw [q1]; linarith⟩⟩
    simp only [e1, e2, h0, h1, if_true, if_false, ne_eq, not_true_eq_false, not_false_eq_true, or_false, or_true, true_and, and_true, false_and, and_false,
      comm (D.boundary.at d = .periodic), List.nil_append]
    by_cases t : c0 ≤ x
    · rw [if_pos t, if_pos (show c0 - reach D ≤ x by linarith), if_neg (show ¬ (c0 - reach D ≤ x ∧ x < c0) from fun h => by linarith [h.2]), List.nil_append]
    · have e3 : (c0 - reach D ≤ x ∧ x < c0) = (c0 - reach D ≤ x) := propext ⟨fun h => h.1, fun h => ⟨h, by linarith⟩⟩
      simp only [if_neg t, e3, List.nil_append]
      exact List.Perm.refl _
  · simp only [h0, h1, if_false, ne_eq, not_false_eq_true, or_true, and_true, false_and, and_false, List.nil_append, List.append_nil]
    have hc01 : c0 < c1 := by linarith
    by_cases t : c0 ≤ x
    · by_cases t' : x < c1
      · rw [if_pos (show c0 ≤ x ∧ x < c1 from ⟨t, t'⟩), if_pos (show c0 - reach D ≤ x ∧ x < c1 + reach D by constructor <;> linarith),
          if_neg (show ¬ (c0 - reach D ≤ x ∧ x < c0) from fun h => by linarith [h.2]),
          if_neg (show ¬ (c1 ≤ x ∧ x < c1 + reach D) from fun h => by linarith [h.1])]
        exact List.Perm.refl _
      · have e3 : (c0 - reach D ≤ x ∧ x < c1 + reach D) = (c1 ≤ x ∧ x < c1 + reach D) :=
          propext ⟨fun h => ⟨by linarith, h.2⟩, fun h => ⟨by linarith, h.2⟩⟩
        simp only [if_neg (show ¬ (c0 ≤ x ∧ x < c1) from fun h => t' h.2), if_neg (show ¬ (c0 - reach D ≤ x ∧ x < c0) from fun h => by linarith [h.2]), e3]
        exact List.Perm.refl _
    · have e3 : (c0 - reach D ≤ x ∧ x < c1 + reach D) = (c0 - reach D ≤ x ∧ x < c0) :=
        propext ⟨fun h => ⟨h.1, by linarith⟩, fun h => ⟨h.1, by linarith⟩⟩
      simp only [if_neg (show ¬ (c0 ≤ x ∧ x < c1) from fun h => t h.1), if_neg (show ¬ (c1 ≤ x ∧ x < c1 + reach D) from fun h => by linarith [h.1]), e3, List.nil_append, List.append_nil]
      exact List.Perm.refl _

theorem filter_map_flatMap' {α β : Type _} (l : List α) (f : α → Bool) (g : α → β) :
    (l.filter f).map g = l.flatMap fun p => if f p then [g p] else [] := by
  induction l with
  | nil => rfl
  | cons a l ih => rw [List.filter_cons, List.flatMap_cons, ← ih]; split <;> simp

theorem flatMap_perm_pointwise {α β : Type _} {l : List α} {f g : α → List β} (h : ∀ a ∈ l, (f a).Perm (g a)) :
    (l.flatMap f).Perm (l.flatMap g) := by
  induction l with
  | nil => exact List.Perm.refl _
  | cons a l ih =>
    rw [List.flatMap_cons, List.flatMap_cons]
    exact (h a (List.mem_cons_self ..)).append (ih fun b hb => h b (List.mem_cons_of_mem _ hb))

/-- The particles of a rank lie in its local box. -/
def Housed (D : RGD) (own : V3 Nat → List Particle) : Prop := ∀ r, IsRank D r → ∀ p ∈ own r, InBox p.pos (D.lo r) (D.hi r)

theorem inBox_iff_at {p lo hi : V3 Rat} : InBox p lo hi ↔ ∀ d : Axis, lo.at d ≤ p.at d ∧ p.at d < hi.at d :=
  ⟨fun h d => by cases d; exacts [h.1, h.2.1, h.2.2], fun h => ⟨h .x, h .y, h .z⟩⟩

theorem inBoxB_at {p lo hi : V3 Rat} : inBoxB p lo hi = true ↔ ∀ d : Axis, lo.at d ≤ p.at d ∧ p.at d < hi.at d := by
  rw [← inBox_iff_at]
  simp [inBoxB, InBox, and_assoc]

theorem inLeftRegion_iff {d : Axis} {r : V3 Nat} {p : Particle} (hp : InBox p.pos (D.lo r) (D.hi r)) :
    D.inLeftRegion d r p = decide (p.pos.at d < (D.lo r).at d + reach D) := by
  unfold RGD.inLeftRegion
  rw [Bool.eq_iff_iff, inBoxB_at, decide_eq_true_eq]
  rw [inBox_iff_at] at hp
  constructor
  · intro h; have := (h d).2; rw [at_put_self] at this; unfold reach; linarith
  · intro h e
    refine ⟨(hp e).1, ?_⟩
    by_cases he : e = d
    · subst he; rw [at_put_self]; unfold reach at h; linarith
    · rw [at_put_ne _ _ he]; exact (hp e).2

theorem inRightRegion_iff {d : Axis} {r : V3 Nat} {p : Particle} (hp : InBox p.pos (D.lo r) (D.hi r)) :
    D.inRightRegion d r p = decide ((D.hi r).at d - reach D ≤ p.pos.at d) := by
  unfold RGD.inRightRegion
  rw [Bool.eq_iff_iff, inBoxB_at, decide_eq_true_eq]
  rw [inBox_iff_at] at hp
  constructor
  · intro h; have := (h d).1; rw [at_put_self] at this; unfold reach; linarith
  · intro h e
    refine ⟨?_, (hp e).2⟩
    by_cases he : e = d
    · subst he; rw [at_put_self]; unfold reach at h; linarith
    · rw [at_put_ne _ _ he]; exact (hp e).1

theorem right_parts {own halo : V3 Nat → List Particle} (hown : Housed D own) {d : Axis} {s : V3 Nat} (hs : IsRank D s) (hskin : 0 ≤ D.skin)
    (hloc : ∀ p ∈ halo s, locB D d s p = true) (hw2 : halo s = [] ∨ 2 * reach D ≤ (D.hi s).at d - (D.lo s).at d) :
    (own s).filter (D.inRightRegion d s) ++ (halo s).filter (D.haloRight d s) =
      (own s ++ halo s).filter fun p => decide ((D.hi s).at d - reach D ≤ p.pos.at d) := by
  rw [List.filter_append, List.filter_congr (l := own s) fun p hp => inRightRegion_iff (hown s hs p hp)]
  congr 1
  apply List.filter_congr
  intro p hp
  have h1 := hloc p hp
  rcases hw2 with hw2 | hw2
  · rw [hw2] at hp; cases hp
  unfold locB at h1
  simp only [Bool.and_eq_true, decide_eq_true_eq] at h1
  unfold RGD.haloRight RGD.haloLeft
  have hr : reach D = D.cutoff + D.skin := rfl
  rw [Bool.eq_iff_iff]
  simp only [Bool.and_eq_true, Bool.not_eq_true', Bool.and_eq_false_iff, decide_eq_true_eq, decide_eq_false_iff_not, ge_iff_le, not_le, not_lt]
  constructor
  · rintro ⟨-, a, -⟩; linarith
  · intro a; exact ⟨Or.inr (by linarith), by linarith, by linarith⟩

theorem left_parts {own halo : V3 Nat → List Particle} (hown : Housed D own) {d : Axis} {s : V3 Nat} (hs : IsRank D s) (hskin : 0 ≤ D.skin)
    (hloc : ∀ p ∈ halo s, locB D d s p = true) :
    (own s).filter (D.inLeftRegion d s) ++ (halo s).filter (D.haloLeft d s) =
      (own s ++ halo s).filter fun p => decide (p.pos.at d < (D.lo s).at d + reach D) := by
  rw [List.filter_append, List.filter_congr (l := own s) fun p hp => inLeftRegion_iff (hown s hs p hp)]
  congr 1
  apply List.filter_congr
  intro p hp
  have h1 := hloc p hp
  unfold locB at h1
  simp only [Bool.and_eq_true, decide_eq_true_eq] at h1
  unfold RGD.haloLeft
  have hr : reach D = D.cutoff + D.skin := rfl
  rw [Bool.eq_iff_iff]
  simp only [Bool.and_eq_true, decide_eq_true_eq, ge_iff_le]
  constructor
  · rintro ⟨-, a⟩; linarith
  · intro a; exact ⟨by linarith, by linarith⟩

/-- One round of the exchange: if every rank holds the particles of `G` in its interval, it afterwards holds all images within
reach. -/
theorem haloStep_perm (h : Tiling D cut (reach D)) (hw : 0 < reach D) (hskin : 0 ≤ D.skin) (hs : Sharp D) {own halo : V3 Nat → List Particle}
    (hown : Housed D own) {d : Axis} {G : V3 Nat → List Particle} (hG : ∀ r, IsRank D r → ∀ j, j < D.dec.at d → G (r.put d j) = G r)
    (hGin : ∀ r, IsRank D r → ∀ p ∈ G r, D.gMin.at d ≤ p.pos.at d ∧ p.pos.at d < D.gMax.at d)
    (hM : ∀ s, IsRank D s → (own s ++ halo s).Perm ((G s).filter (locB D d s)))
    (hcase : (∀ s, halo s = []) ∨ ((D.boundary.at d = .periodic ∨ D.dec.at d = 1) ∧
      ∀ s, IsRank D s → 2 * reach D ≤ (D.hi s).at d - (D.lo s).at d)) {r : V3 Nat} (hr : IsRank D r) :
    (own r ++ D.haloStep own halo d r).Perm ((G r).flatMap (imgs D d r)) := by
  have hd := isRank_iff.1 hr d
  have hL := isRank_left hr d
  have hR := isRank_right hr d
  refine List.Perm.trans ?_ (flatMap_perm_pointwise fun p hp => (imgs_perm h hw hr (hGin r hr p hp).1 (hGin r hr p hp).2)).symm
  refine List.Perm.trans ?_ (List.flatMap_append_perm _ _ _)
  have hB : ((G r).flatMap fun p => if locB D d r p then [p] else []) = (G r).filter (locB D d r) := by
    have := filter_map_flatMap' (G r) (locB D d r) id
    rw [List.map_id] at this; exact this.symm
  rw [hB]
  unfold RGD.haloStep
  have hskip : D.skip d r = (decide (D.boundary.at d ≠ .periodic) && decide (r.at d = 0) && decide (r.at d + 1 = D.dec.at d)) := by
    unfold RGD.skip; rw [hs.min r hr, hs.max r hr]
  have hGL : G (D.left d r) = G r := by
    rw [left_at hr, hG r hr]
    split <;> omega
  have hGR : G (D.right d r) = G r := by
    rw [right_at hr, hG r hr]
    split <;> omega
  by_cases hsk : D.skip d r = true
  · rw [if_pos hsk]
    rw [hskip] at hsk
    simp only [Bool.and_eq_true, decide_eq_true_eq] at hsk
    obtain ⟨⟨s1, s2⟩, s3⟩ := hsk
    have e : ∀ f : Particle → List Particle, ((G r).flatMap fun _ => ([] : List Particle)) = [] := fun _ => by simp
    simp only [s1, ne_eq, s2, s3, not_true_eq_false, or_false, and_false, if_false, List.append_nil]
    have s3' : 0 + 1 = D.dec.at d := by omega
    simp only [s3', not_true_eq_false, or_false, and_false, if_false, List.append_nil]
    rw [show ((G r).flatMap fun _ => ([] : List Particle)) = [] by simp, List.append_nil]
    exact hM r hr
  · rw [if_neg hsk]
    rw [← List.append_assoc]
    refine List.Perm.append (hM r hr) ?_
    refine (exchange_perm hr d _ _).trans ?_
    refine List.Perm.trans ?_ (List.flatMap_append_perm _ _ _)
    have hsk' : ¬ (D.boundary.at d ≠ .periodic ∧ r.at d = 0 ∧ r.at d + 1 = D.dec.at d) := by
      rintro ⟨a, b, c⟩
      apply hsk
      rw [hskip]; simp [a, b]; omega
    have hnil : D.boundary.at d ≠ .periodic → (r.at d = 0 ∨ r.at d + 1 = D.dec.at d) → ∀ s, halo s = [] := by
      intro a b
      rcases hcase with hc | ⟨hc | hc, -⟩
      · exact hc
      · exact absurd hc a
      · exact absurd ⟨a, by omega, by omega⟩ hsk'
    have hloc : ∀ s, IsRank D s → ∀ p ∈ halo s, locB D d s p = true := fun s hs' p hp =>
      (List.mem_filter.1 ((hM s hs').subset (List.mem_append_right _ hp))).2
    have hw2 : ∀ s, IsRank D s → halo s = [] ∨ 2 * reach D ≤ (D.hi s).at d - (D.lo s).at d := by
      intro s hs'
      rcases hcase with hc | ⟨-, hc⟩
      · exact Or.inl (hc s)
      · exact Or.inr (hc s hs')
    apply List.Perm.append
    · have hmax : D.atMax d (D.left d r) = decide (r.at d = 0) := by
        rw [hs.max _ hL, left_at hr, at_put_self]
        apply decide_eq_decide.2
        split <;> omega
      unfold RGD.toRight
      simp only [hmax]
      by_cases hc : D.boundary.at d = .periodic ∨ r.at d ≠ 0
      · have hc' : D.boundary.at d = .periodic ∨ decide (r.at d = 0) = false := by simpa using hc
        rw [if_pos hc', ← List.map_append, right_parts hown hL hskin (hloc _ hL) (hw2 _ hL)]
        simp only [hc, and_true]
        rw [← filter_map_flatMap' (G r)]
        simp only [decide_eq_true_eq]
        apply List.Perm.map
        refine ((hM _ hL).filter _).trans (List.Perm.of_eq ?_)
        rw [hGL, List.filter_filter]
        exact List.filter_congr fun p _ => Bool.and_comm _ _
      · have hc' : ¬ (D.boundary.at d = .periodic ∨ decide (r.at d = 0) = false) := by simpa using hc
        rw [if_neg hc']
        have hc2 := not_or.1 hc
        rw [hnil hc2.1 (Or.inl (by simpa using hc2.2))]
        simp only [hc, and_false, if_false]
        simp
    · have hmin : D.atMin d (D.right d r) = decide (r.at d + 1 = D.dec.at d) := by
        rw [hs.min _ hR, right_at hr, at_put_self]
        apply decide_eq_decide.2
        split <;> omega
      unfold RGD.toLeft
      simp only [hmin]
      by_cases hc : D.boundary.at d = .periodic ∨ r.at d + 1 ≠ D.dec.at d
      · have hc' : D.boundary.at d = .periodic ∨ decide (r.at d + 1 = D.dec.at d) = false := by simpa using hc
        rw [if_pos hc', ← List.map_append, left_parts hown hR hskin (hloc _ hR)]
        simp only [hc, and_true]
        rw [← filter_map_flatMap' (G r)]
        simp only [decide_eq_true_eq]
        apply List.Perm.map
        refine ((hM _ hR).filter _).trans (List.Perm.of_eq ?_)
        rw [hGR, List.filter_filter]
        exact List.filter_congr fun p _ => Bool.and_comm _ _
      · have hc' : ¬ (D.boundary.at d = .periodic ∨ decide (r.at d + 1 = D.dec.at d) = false) := by simpa using hc
        rw [if_neg hc']
        have hc2 := not_or.1 hc
        rw [hnil hc2.1 (Or.inr (by simpa using hc2.2))]
        simp only [hc, and_false, if_false]
        simp

theorem mem_imgs_at {d e : Axis} {r : V3 Nat} {p q : Particle} (hq : q ∈ imgs D d r p) (he : e ≠ d) : q.pos.at e = p.pos.at e := by
  obtain ⟨k, -, rfl⟩ := List.mem_map.1 (List.mem_filter.1 hq).1
  exact shift_at_ne _ _ he

theorem imgs_filter_loc {d e : Axis} (he : e ≠ d) (r s : V3 Nat) (l : List Particle) :
    (l.flatMap (imgs D d r)).filter (locB D e s) = (l.filter (locB D e s)).flatMap (imgs D d r) := by
  induction l with
  | nil => rfl
  | cons p l ih =>
    have hl : ∀ q ∈ imgs D d r p, locB D e s q = locB D e s p := by
      intro q hq; unfold locB; rw [mem_imgs_at hq he]
    rw [List.flatMap_cons, List.filter_append, ih, List.filter_cons]
    cases hp : locB D e s p with
    | true =>
      rw [if_pos rfl, List.flatMap_cons, List.filter_eq_self.2 fun q hq => by rw [hl q hq, hp]]
    | false =>
      rw [if_neg (by simp), List.filter_eq_nil_iff.2 fun q hq => by rw [hl q hq, hp]; simp]; rfl

theorem loc_put (h : Tiling D cut w) {r : V3 Nat} (hr : IsRank D r) {d e : Axis} (he : e ≠ d) {j : Nat} (hj : j < D.dec.at d) :
    locB D e (r.put d j) = locB D e r := by
  funext p
  have hr' := isRank_put hr hj
  unfold locB
  rw [h.lo _ hr', h.hi _ hr', h.lo _ hr, h.hi _ hr, at_put_ne _ _ he]

theorem imgs_put (h : Tiling D cut w) {r : V3 Nat} (hr : IsRank D r) {d e : Axis} (he : e ≠ d) {j : Nat} (hj : j < D.dec.at d) :
    imgs D e (r.put d j) = imgs D e r := by
  funext p
  have hr' := isRank_put hr hj
  unfold imgs
  apply List.filter_congr
  intro q _
  unfold extB
  rw [h.lo _ hr', h.hi _ hr', h.lo _ hr, h.hi _ hr, at_put_ne _ _ he]

theorem mem_ranks {dec r : V3 Nat} : r ∈ ranks dec ↔ r.x < dec.x ∧ r.y < dec.y ∧ r.z < dec.z := by
  unfold ranks
  simp only [List.mem_flatMap, List.mem_map, List.mem_range]
  constructor
  · rintro ⟨i, hi, j, hj, k, hk, rfl⟩; exact ⟨hi, hj, hk⟩
  · intro h; exact ⟨r.x, h.1, r.y, h.2.1, r.z, h.2.2, rfl⟩

theorem ranks_nodup (dec : V3 Nat) : (ranks dec).Nodup := by
  unfold ranks
  rw [List.nodup_flatMap]
  refine ⟨fun i _ => ?_, ?_⟩
  · rw [List.nodup_flatMap]
    refine ⟨fun j _ => ?_, ?_⟩
    · exact List.nodup_range.map fun a b hab => by simpa using hab
    · refine List.nodup_range.imp fun {a b} hab => ?_
      intro q h1 h2
      obtain ⟨k, -, rfl⟩ := List.mem_map.1 h1
      obtain ⟨k', -, h3⟩ := List.mem_map.1 h2
      exact hab (congrArg V3.y h3).symm
  · refine List.nodup_range.imp fun {a b} hab => ?_
    intro q h1 h2
    obtain ⟨j, -, h1⟩ := List.mem_flatMap.1 h1
    obtain ⟨k, -, rfl⟩ := List.mem_map.1 h1
    obtain ⟨j', -, h2⟩ := List.mem_flatMap.1 h2
    obtain ⟨k', -, h3⟩ := List.mem_map.1 h2
    exact hab (congrArg V3.x h3).symm

/-- Two domains that contain the same position are the same. -/
theorem box_unique (h : Tiling D cut w) (hw : 0 ≤ w) {r s : V3 Nat} (hr : IsRank D r) (hs : IsRank D s) {p : V3 Rat}
    (h1 : InBox p (D.lo r) (D.hi r)) (h2 : InBox p (D.lo s) (D.hi s)) : r = s := by
  apply v3_ext_at
  intro d
  rw [inBox_iff_at] at h1 h2
  have a := h1 d; have b := h2 d
  rw [h.lo _ hr, h.hi _ hr] at a
  rw [h.lo _ hs, h.hi _ hs] at b
  rcases Nat.lt_trichotomy (r.at d) (s.at d) with hlt | heq | hgt
  · have := cut_mono h hw (d := d) (show r.at d + 1 ≤ s.at d by omega) (isRank_iff.1 hs d).le
    linarith [a.2, b.1]
  · exact heq
  · have := cut_mono h hw (d := d) (show s.at d + 1 ≤ r.at d by omega) (isRank_iff.1 hr d).le
    linarith [a.1, b.2]

/-- The domains lie inside the global box. -/
theorem box_in_global (h : Tiling D cut w) (hw : 0 ≤ w) {r : V3 Nat} (hr : IsRank D r) {p : V3 Rat}
    (h1 : InBox p (D.lo r) (D.hi r)) (d : Axis) : D.gMin.at d ≤ p.at d ∧ p.at d < D.gMax.at d := by
  rw [inBox_iff_at] at h1
  have a := h1 d
  rw [h.lo _ hr, h.hi _ hr] at a
  have b1 := cut_mono h hw (d := d) (Nat.zero_le (r.at d)) (isRank_iff.1 hr d).le
  have b2 := cut_mono h hw (d := d) (Nat.succ_le_of_lt (isRank_iff.1 hr d)) le_rfl
  rw [h.first] at b1
  rw [h.last] at b2
  exact ⟨by linarith [a.1], lt_of_lt_of_le a.2 b2⟩

/-- All owned particles of all ranks. -/
def everyone (D : RGD) (own : V3 Nat → List Particle) : List Particle := (ranks D.dec).flatMap own

theorem flatMap_only {α β : Type _} [DecidableEq α] {l : List α} (hl : l.Nodup) {r : α} (hr : r ∈ l) {f : α → List β}
    (hf : ∀ s ∈ l, s ≠ r → f s = []) : l.flatMap f = f r := by
  induction l with
  | nil => cases hr
  | cons a l ih =>
    rw [List.nodup_cons] at hl
    rw [List.flatMap_cons]
    by_cases ha : a = r
    · subst ha
      rw [List.flatMap_eq_nil_iff.2 fun s hs => hf s (List.mem_cons_of_mem _ hs) (fun e => hl.1 (e ▸ hs)), List.append_nil]
    · rw [hf a (List.mem_cons_self ..) ha, List.nil_append]
      rcases List.mem_cons.1 hr with hr | hr
      · exact absurd hr.symm ha
      · exact ih hl.2 hr fun s hs => hf s (List.mem_cons_of_mem _ hs)

theorem own_eq (h : Tiling D cut w) (hw : 0 ≤ w) {own : V3 Nat → List Particle} (hown : Housed D own) {r : V3 Nat} (hr : IsRank D r) :
    (((everyone D own).filter fun p => locB D .y r p && locB D .z r p).filter (locB D .x r)) = own r := by
  rw [List.filter_filter]
  unfold everyone
  rw [List.filter_flatMap]
  have hbox : ∀ p : Particle, (locB D .x r p && (locB D .y r p && locB D .z r p)) = decide (InBox p.pos (D.lo r) (D.hi r)) := by
    intro p
    rw [Bool.eq_iff_iff, decide_eq_true_eq]
    simp only [locB, InBox, Bool.and_eq_true, decide_eq_true_eq]
    exact Iff.rfl
  rw [flatMap_only (ranks_nodup D.dec) (mem_ranks.2 hr)]
  · apply List.filter_eq_self.2
    intro p hp
    rw [hbox]; exact decide_eq_true (hown r hr p hp)
  · intro s hs hne
    apply List.filter_eq_nil_iff.2
    intro p hp
    rw [hbox, decide_eq_true_eq]
    intro hin
    exact hne (box_unique h hw (mem_ranks.1 hs) hr (hown s (mem_ranks.1 hs) p hp) hin)

theorem everyone_global (h : Tiling D cut w) (hw : 0 ≤ w) {own : V3 Nat → List Particle} (hown : Housed D own) {p : Particle} (hp : p ∈ everyone D own)
    (d : Axis) : D.gMin.at d ≤ p.pos.at d ∧ p.pos.at d < D.gMax.at d := by
  obtain ⟨s, hs, hp⟩ := List.mem_flatMap.1 hp
  exact box_in_global h hw (mem_ranks.1 hs) (hown s (mem_ranks.1 hs) p hp) d

/-- The exchange as a whole. -/
theorem exchangeHalo_perm (h : Tiling D cut (reach D)) (hw : 0 < reach D) (hskin : 0 ≤ D.skin) (hs : Sharp D)
    {own : V3 Nat → List Particle} (hown : Housed D own)
    (hper : ∀ d : Axis, d ≠ .x → D.boundary.at d = .periodic ∨ D.dec.at d = 1)
    (hwide : ∀ d : Axis, d ≠ .x → ∀ s, IsRank D s → 2 * reach D ≤ (D.hi s).at d - (D.lo s).at d) {r : V3 Nat} (hr : IsRank D r) :
    (own r ++ D.exchangeHalo own r).Perm
      ((((everyone D own).flatMap (imgs D .x r)).flatMap (imgs D .y r)).flatMap (imgs D .z r)) := by
  have hwl := hw.le
  set P := everyone D own with hP
  have s1 : ∀ s, IsRank D s → (own s ++ D.haloStep own (fun _ => []) .x s).Perm
      ((P.filter fun p => locB D .y s p && locB D .z s p).flatMap (imgs D .x s)) := fun s hs' =>
    haloStep_perm h hw hskin hs hown (halo := fun _ => []) (d := .x) (G := fun s => P.filter fun p => locB D .y s p && locB D .z s p)
      (fun r hr j hj => by
        simp only [loc_put h hr (show Axis.y ≠ .x by decide) hj, loc_put h hr (show Axis.z ≠ .x by decide) hj])
      (fun r hr p hp => everyone_global h hwl hown (List.mem_filter.1 hp).1 .x)
      (fun s hs' => by rw [List.append_nil, own_eq h hwl hown hs'])
      (Or.inl fun _ => rfl) hs'
  set halo1 := D.haloStep own (fun _ => []) .x with hh1
  have s2 : ∀ s, IsRank D s → (own s ++ D.haloStep own halo1 .y s).Perm
      (((P.filter fun p => locB D .z s p).flatMap (imgs D .x s)).flatMap (imgs D .y s)) := fun s hs' =>
    haloStep_perm h hw hskin hs hown (halo := halo1) (d := .y) (G := fun s => (P.filter fun p => locB D .z s p).flatMap (imgs D .x s))
      (fun r hr j hj => by
        simp only [imgs_put h hr (show Axis.x ≠ .y by decide) hj, loc_put h hr (show Axis.z ≠ .y by decide) hj])
      (fun r hr p hp => by
        obtain ⟨q, hq, hp⟩ := List.mem_flatMap.1 hp
        rw [mem_imgs_at hp (by decide)]
        exact everyone_global h hwl hown (List.mem_filter.1 hq).1 .y)
      (fun s hs' => by
        rw [imgs_filter_loc (by decide), List.filter_filter]
        exact s1 s hs')
      (Or.inr ⟨hper _ (by decide), hwide _ (by decide)⟩) hs'
  set halo2 := D.haloStep own halo1 .y with hh2
  have s3 := haloStep_perm h hw hskin hs hown (halo := halo2) (d := .z)
      (G := fun s => (P.flatMap (imgs D .x s)).flatMap (imgs D .y s))
      (fun r hr j hj => by
        simp only [imgs_put h hr (show Axis.x ≠ .z by decide) hj, imgs_put h hr (show Axis.y ≠ .z by decide) hj])
      (fun r hr p hp => by
        obtain ⟨q, hq, hp⟩ := List.mem_flatMap.1 hp
        obtain ⟨q', hq', hq⟩ := List.mem_flatMap.1 hq
        rw [mem_imgs_at hp (by decide), mem_imgs_at hq (by decide)]
        exact everyone_global h hwl hown hq' .z)
      (fun s hs' => by
        rw [imgs_filter_loc (by decide), imgs_filter_loc (by decide)]
        exact s2 s hs')
      (Or.inr ⟨hper _ (by decide), hwide _ (by decide)⟩) hr
  exact s3

private theorem filter_map_flatMap_of {α β γ : Type _} (l : List α) (f : α → β) (e : β → Bool) (g : β → List γ) :
    (((l.map f).filter e).flatMap g) = l.flatMap fun a => if e (f a) then g (f a) else [] := by
  induction l with
  | nil => rfl
  | cons a l ih =>
    rw [List.map_cons, List.filter_cons, List.flatMap_cons, ← ih]
    split <;> simp [*]

/-- Dimension by dimension or all at once: the same images. -/
theorem imgs_eq_images (r : V3 Nat) (p : Particle) :
    ((imgs D .x r p).flatMap (imgs D .y r)).flatMap (imgs D .z r) = (imagesOf D p).filter fun q => decide (InReach D r q.pos) := by
  rw [List.flatMap_assoc]
  unfold imgs imagesOf
  rw [filter_map_flatMap_of, List.filter_flatMap]
  show (shifts D.boundary.x).flatMap _ = (shifts D.boundary.x).flatMap _
  congr 1
  funext i
  rw [List.filter_flatMap, filter_map_flatMap_of]
  show (if _ then (shifts D.boundary.y).flatMap _ else []) = (shifts D.boundary.y).flatMap _
  have hreach : ∀ (j k : Int), decide (InReach D r (image D p ⟨i, j, k⟩).pos) =
      (extB D .x r (p.shift .x (i * D.length .x)) && (extB D .y r ((p.shift .x (i * D.length .x)).shift .y (j * D.length .y)) &&
        extB D .z r (((p.shift .x (i * D.length .x)).shift .y (j * D.length .y)).shift .z (k * D.length .z)))) := by
    intro j k
    rw [Bool.eq_iff_iff, decide_eq_true_eq]
    simp only [InReach, InBox, extB, Bool.and_eq_true, decide_eq_true_eq]
    exact Iff.rfl
  have himg : ∀ (j k : Int), ((p.shift .x (i * D.length .x)).shift .y (j * D.length .y)).shift .z (k * D.length .z) = image D p ⟨i, j, k⟩ := by
    intro j k; rfl
  by_cases hx : extB D .x r (p.shift .x (i * D.length .x)) = true
  · rw [if_pos hx]
    congr 1
    funext j
    by_cases hy : extB D .y r ((p.shift .x (i * D.length .x)).shift .y (j * D.length .y)) = true
    · rw [if_pos hy]
      show (List.map _ (shifts D.boundary.z)).filter _ = _
      rw [List.filter_map, List.filter_map]
      simp only [himg]
      congr 1
      apply List.filter_congr
      intro k _
      simp only [Function.comp_apply]
      rw [hreach, hx, hy, himg]
      simp
    · rw [if_neg hy, List.filter_eq_nil_iff.2]
      intro q hq
      obtain ⟨k, -, rfl⟩ := List.mem_map.1 hq
      rw [hreach]
      simp [hy]
  · rw [if_neg hx]
    symm
    rw [List.flatMap_eq_nil_iff]
    intro j _
    rw [List.filter_eq_nil_iff]
    intro q hq
    obtain ⟨k, -, rfl⟩ := List.mem_map.1 hq
    rw [hreach]
    simp [hx]

/-- If no domain is narrower than a billionth of the largest coordinate, only the domains at the ends of the global box are taken to be
there. -/
theorem sharp_of_near (h : Tiling D cut w) (hw : 0 ≤ w) (hfar : ∀ d : Axis, max |D.gMin.at d| |D.gMax.at d| < 1000000000 * w) : Sharp D := by
  have hmax : ∀ (d : Axis) (i : Nat), i ≤ D.dec.at d → |cut d i| ≤ max |D.gMin.at d| |D.gMax.at d| := by
    intro d i hi
    have h1 := cut_mono h hw (d := d) (Nat.zero_le i) hi
    have h2 := cut_mono h hw (d := d) hi le_rfl
    rw [h.first] at h1
    rw [h.last] at h2
    exact abs_le_max_abs_abs h1 h2
  have hwpos : ∀ d : Axis, 0 < w := fun d => by
    have := hfar d
    have h0 : 0 ≤ max |D.gMin.at d| |D.gMax.at d| := le_trans (abs_nonneg _) (le_max_left _ _)
    linarith
  constructor
  · intro r hr d
    unfold RGD.atMin isNearRel
    apply decide_eq_decide.2
    rw [h.lo r hr]
    constructor
    · intro hn
      by_contra h0
      have h1 := cut_mono h hw (d := d) (show 1 ≤ r.at d by omega) (isRank_iff.1 hr d).le
      have h2 := h.wide d 0 (h.pos d)
      rw [h.first] at h2
      have h3 := hmax d _ (isRank_iff.1 hr d).le
      have h4 : max |cut d (r.at d)| |D.gMin.at d| ≤ max |D.gMin.at d| |D.gMax.at d| := max_le h3 (le_max_left _ _)
      have h5 := le_abs_self (cut d (r.at d) - D.gMin.at d)
      have h6 := hfar d
      have : w ≤ 1 / 1000000000 * max |D.gMin.at d| |D.gMax.at d| := by linarith
      linarith
    · intro h0
      rw [h0, h.first, sub_self, abs_zero]
      have := abs_nonneg (D.gMin.at d)
      have h1 : 0 ≤ max |D.gMin.at d| |D.gMin.at d| := le_trans this (le_max_left _ _)
      linarith
  · intro r hr d
    unfold RGD.atMax isNearRel
    apply decide_eq_decide.2
    rw [h.hi r hr]
    have hd := isRank_iff.1 hr d
    constructor
    · intro hn
      by_contra h0
      have h1 := cut_mono h hw (d := d) (show r.at d + 1 ≤ D.dec.at d - 1 by omega) (by omega)
      have h2 := h.wide d (D.dec.at d - 1) (by omega)
      rw [show D.dec.at d - 1 + 1 = D.dec.at d by omega, h.last] at h2
      have h3 := hmax d (r.at d + 1) hd
      have h4 : max |cut d (r.at d + 1)| |D.gMax.at d| ≤ max |D.gMin.at d| |D.gMax.at d| := max_le h3 (le_max_right _ _)
      have h5 := neg_le_abs (cut d (r.at d + 1) - D.gMax.at d)
      have h6 := hfar d
      have : w ≤ 1 / 1000000000 * max |D.gMin.at d| |D.gMax.at d| := by linarith
      linarith
    · intro h0
      rw [h0, h.last, sub_self, abs_zero]
      have := abs_nonneg (D.gMax.at d)
      have h1 : 0 ≤ max |D.gMax.at d| |D.gMax.at d| := le_trans this (le_max_left _ _)
      linarith

end Verif
