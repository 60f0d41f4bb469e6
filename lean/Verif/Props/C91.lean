import Verif.Spec.Reflect
import Verif.Lemmas.Num
import Verif.Lemmas.MDHalo
import Verif.Props.C83
import Mathlib.Tactic.Ring
import Mathlib.Tactic.FieldSimp
import Mathlib.Tactic.Linarith
import Mathlib.Tactic.Positivity
/-!
# C91 — reflective boundaries push particles back into the box

On every rank, every owned particle gets from every reflective wall within `2^(1/6) σ/2` of it exactly the Lennard-Jones force of its mirror image, which points
straight away from the wall, and no force from any other wall.

Partial: not for a particle exactly on a wall (the lower walls belong to the box), whose force is not finite (`C91_violated_on_the_wall`).
-/
namespace Verif
open Spec

variable {D : RGD} {cut : Axis → Nat → Rat} {R : Reflection} {σ ε : Nat → Rat} {types : List Nat}

theorem mirror_eq (p : V3 Rat) (d : Axis) (b : Rat) : mirrorPosition p d b = mirrored p d b := by
  unfold mirrorPosition mirrored
  congr 1; ring

theorem normSq_mirror (p : V3 Rat) (d : Axis) (b : Rat) : normSq (p - mirrored p d b) = (2 * (p.at d - b)) ^ 2 := by
  unfold mirrored normSq
  cases d <;> simp only [V3.sub_x, V3.sub_y, V3.sub_z, V3.put, V3.at] <;> ring

theorem ljKernel_eq (p : V3 Rat) (d : Axis) (b : Rat) (h : p.at d ≠ b) (s e : Rat) :
    ljKernel p (mirrorPosition p d b) (s ^ 2) (24 * e) = (ljF e s (p - mirrored p d b)).fin := by
  have hn : normSq (p - mirrored p d b) ≠ 0 := by
    rw [normSq_mirror]
    exact pow_ne_zero _ (mul_ne_zero two_ne_zero (sub_ne_zero.2 h))
  unfold ljKernel ljF
  rw [mirror_eq]
  dsimp only
  have hi : (p - mirrored p d b).inner (p - mirrored p d b) = normSq (p - mirrored p d b) := by
    unfold V3.inner normSq; ring
  rw [hi, Num.fin_div hn]
  simp only [Num.fin_mul, Num.fin_sub, Num.fin_add]
  generalize normSq (p - mirrored p d b) = n at hn
  apply V3.ext' <;> simp only [V3.scale_x, V3.scale_y, V3.scale_z, V3.fin_x, V3.fin_y, V3.fin_z, Num.fin_mul] <;> congr 2 <;> field_simp <;> ring

theorem foldl_max_sigma (l : List Rat) (a : Rat) : a ≤ l.foldl max a ∧ ∀ x ∈ l, x ≤ l.foldl max a := by
  induction l generalizing a with
  | nil => exact ⟨le_rfl, fun x h => by cases h⟩
  | cons y l ih =>
    obtain ⟨h1, h2⟩ := ih (max a y)
    rw [List.foldl_cons]
    refine ⟨(le_max_left _ _).trans h1, fun x hx => ?_⟩
    rcases List.mem_cons.1 hx with rfl | hx
    · exact (le_max_right _ _).trans h1
    · exact h2 x hx

theorem reach_le_skin (hR : ReflectionOk R σ ε types) {t : Nat} (ht : t ∈ types) : R.root * (1 / 2) * σ t ≤ R.maxSkin := by
  rw [hR.maxSkin]
  unfold maxReflectiveSkin
  have := (foldl_max_sigma (types.map σ) 0).2 (σ t) (List.mem_map.2 ⟨t, ht, rfl⟩)
  have hr := hR.root
  nlinarith

/-- One wall: whether or not the rank runs the loop for it. -/
theorem reflectOne_eq (hR : ReflectionOk R σ ε types) {t : Nat} {p : V3 Rat} {d : Axis} {b : Rat} (hb : p.at d ≠ b)
    (f : V3 (Num Rat)) :
    R.reflectOne t p d b f = f + (wallForce (ε t) (σ t) (R.root * (1 / 2) * σ t) p d b).fin := by
  unfold Reflection.reflectOne wallForce
  rw [hR.sigma, hR.sigmaSquared, hR.epsilon24]
  split
  · rw [ljKernel_eq p d b hb]
  · have : (0 : V3 Rat).fin = (0 : V3 (Num Rat)) := rfl
    rw [this, add_zero]

theorem far_from_wall {s r : Rat} {p : V3 Rat} {d : Axis} {b ε' : Rat} (h : r ≤ |p.at d - b|) : wallForce ε' s r p d b = 0 := by
  unfold wallForce
  rw [if_neg (not_lt.2 h)]

theorem dimension_eq (h : Tiling D cut (R.maxSkin)) (hw : 0 ≤ R.maxSkin) (hR : ReflectionOk R σ ε types) {t : Nat} (ht : t ∈ types) {r : V3 Nat}
    (hr : IsRank D r) {p : V3 Rat} (hp : InBox p (D.lo r) (D.hi r)) {d : Axis} (hb : D.boundary.at d = .reflective → p.at d ≠ D.gMin.at d)
    (f : V3 (Num Rat)) :
    R.dimension D r t p f d = f + (if D.boundary.at d = .reflective then wallForce (ε t) (σ t) (R.root * (1 / 2) * σ t) p d (D.gMin.at d) +
      wallForce (ε t) (σ t) (R.root * (1 / 2) * σ t) p d (D.gMax.at d) else 0).fin := by
  have hz : (0 : V3 Rat).fin = (0 : V3 (Num Rat)) := rfl
  unfold Reflection.dimension
  by_cases hbd : D.boundary.at d = .reflective
  · rw [if_neg (not_not.2 hbd), if_pos hbd]
    have hglob := box_in_global h hw hr hp
    have hp' := inBox_iff_at.1 hp
    have hskin := reach_le_skin hR ht
    have hmin : p.at d ≠ D.gMin.at d := hb hbd
    have hmax : p.at d ≠ D.gMax.at d := (hglob d).2.ne
    dsimp only
    -- the lower wall
    have hlow : (if (D.atMin d r && inBoxB p D.gMin (D.gMax.put d (D.gMin.at d + R.maxSkin))) = true then R.reflectOne t p d (D.gMin.at d) f else f) =
        f + (wallForce (ε t) (σ t) (R.root * (1 / 2) * σ t) p d (D.gMin.at d)).fin := by
      by_cases hnear : p.at d < D.gMin.at d + R.maxSkin
      · have hin : inBoxB p D.gMin (D.gMax.put d (D.gMin.at d + R.maxSkin)) = true := by
          refine inBoxB_at.2 fun e => ⟨(hglob e).1, ?_⟩
          by_cases he : e = d
          · subst he; rw [at_put_self]; exact hnear
          · rw [at_put_ne _ _ he]; exact (hglob e).2
        -- the rank is the first one
        have hfirst : r.at d = 0 := by
          by_contra hne
          have h1 := h.wide d 0 (h.pos d)
          have hri := isRank_iff.1 hr d
          have h2 := cut_mono h hw (d := d) (show 0 + 1 ≤ r.at d by omega) (by omega)
          have h3 := (hp' d).1
          rw [h.lo r hr] at h3
          rw [h.first] at h1
          linarith
        have hat : D.atMin d r = true := by
          unfold RGD.atMin isNearRel
          rw [h.lo r hr, hfirst, h.first, sub_self, abs_zero, decide_eq_true_eq]
          positivity
        rw [hat, hin, Bool.and_self, if_pos rfl, reflectOne_eq hR hmin]
      · rw [if_neg, far_from_wall, hz, add_zero]
        · have h1 : R.maxSkin ≤ p.at d - D.gMin.at d := by linarith
          exact hskin.trans (h1.trans (le_abs_self _))
        · rw [Bool.and_eq_true]
          rintro ⟨-, hin⟩
          have := (inBoxB_at.1 hin d).2
          rw [at_put_self] at this
          exact hnear this
    rw [hlow]
    set f1 := f + (wallForce (ε t) (σ t) (R.root * (1 / 2) * σ t) p d (D.gMin.at d)).fin with hf1
    rw [V3.fin_add, ← add_assoc, ← hf1]
    by_cases hnear : D.gMax.at d - R.maxSkin ≤ p.at d
    · have hin : inBoxB p (D.gMin.put d (D.gMax.at d - R.maxSkin)) D.gMax = true := by
        refine inBoxB_at.2 fun e => ⟨?_, (hglob e).2⟩
        by_cases he : e = d
        · subst he; rw [at_put_self]; exact hnear
        · rw [at_put_ne _ _ he]; exact (hglob e).1
      have hlast : r.at d + 1 = D.dec.at d := by
        by_contra hne
        have hri := isRank_iff.1 hr d
        have h1 := h.wide d (D.dec.at d - 1) (by have := h.pos d; omega)
        rw [show D.dec.at d - 1 + 1 = D.dec.at d by omega] at h1
        have h2 := cut_mono h hw (d := d) (show r.at d + 1 ≤ D.dec.at d - 1 by omega) (by omega)
        have h3 := (hp' d).2
        rw [h.hi r hr] at h3
        rw [h.last] at h1
        linarith
      have hat : D.atMax d r = true := by
        unfold RGD.atMax isNearRel
        rw [h.hi r hr, hlast, h.last, sub_self, abs_zero, decide_eq_true_eq]
        positivity
      rw [hat, hin, Bool.and_self, if_pos rfl, reflectOne_eq hR hmax]
    · rw [if_neg, far_from_wall, hz, add_zero]
      · have h1 : R.maxSkin ≤ -(p.at d - D.gMax.at d) := by linarith
        exact hskin.trans (h1.trans (neg_le_abs _))
      · rw [Bool.and_eq_true]
        rintro ⟨-, hin⟩
        have := (inBoxB_at.1 hin d).1
        rw [at_put_self] at this
        exact hnear this
  · rw [if_pos hbd, if_neg hbd, hz, add_zero]

/-- Every owned particle on every rank gets exactly the forces of the walls near it. -/
theorem C91_wall_forces_partial (h : Tiling D cut (R.maxSkin)) (hw : 0 ≤ R.maxSkin) (hR : ReflectionOk R σ ε types) {t : Nat} (ht : t ∈ types)
    {r : V3 Nat} (hr : IsRank D r) {p : V3 Rat} (hp : InBox p (D.lo r) (D.hi r))
    (hb : ∀ d : Axis, D.boundary.at d = .reflective → p.at d ≠ D.gMin.at d) (f : V3 (Num Rat)) :
    R.reflect D r t p f = f + (wallForces D (ε t) (σ t) (R.root * (1 / 2) * σ t) p).fin := by
  unfold Reflection.reflect wallForces
  simp only [List.foldl_cons, List.foldl_nil, List.map_cons, List.map_nil, List.sum_cons, List.sum_nil]
  rw [dimension_eq h hw hR ht hr hp (hb .x), dimension_eq h hw hR ht hr hp (hb .y), dimension_eq h hw hR ht hr hp (hb .z), add_zero, V3.fin_add, V3.fin_add,
    add_assoc, add_assoc]

/-- The force of a wall is perpendicular to the wall, and for a particle closer than `2^(1/6) σ/2` it points away from the wall. -/
theorem C91_inward {e s reach : Rat} (he : 0 < e) (hs : 0 < s) (p : V3 Rat) (d : Axis) (b : Rat) (hb : p.at d ≠ b) :
    (∀ d', d' ≠ d → (wallForce e s reach p d b).at d' = 0) ∧
    (|p.at d - b| < reach → (2 * (p.at d - b)) ^ 6 < 2 * s ^ 6 → 0 < (wallForce e s reach p d b).at d * (p.at d - b)) := by
  have hat : ∀ d', d' ≠ d → (p - mirrored p d b).at d' = 0 := by
    intro d' hd'
    unfold mirrored
    cases d <;> cases d' <;> first | exact absurd rfl hd' | simp [V3.at, V3.put]
  have hself : (p - mirrored p d b).at d = 2 * (p.at d - b) := by
    unfold mirrored
    cases d <;> simp only [V3.sub_x, V3.sub_y, V3.sub_z, V3.put, V3.at] <;> ring
  have hscale : ∀ (v : V3 Rat) k (d' : Axis), (v.scale k).at d' = v.at d' * k := by intro v k d'; cases d' <;> rfl
  constructor
  · intro d' hd'
    unfold wallForce
    split
    · unfold ljF; rw [hscale, hat d' hd', zero_mul]
    · cases d' <;> rfl
  · intro hnear hclose
    unfold wallForce
    rw [if_pos hnear]
    unfold ljF
    rw [hscale, hself, normSq_mirror]
    have hx : 0 < (p.at d - b) ^ 2 := by
      have := sub_ne_zero.2 hb
      positivity
    generalize hxy : p.at d - b = y at *
    have h2 : 0 < (2 * y) ^ 2 := by nlinarith
    have h6 : (s ^ 2 / (2 * y) ^ 2) ^ 3 = s ^ 6 / (2 * y) ^ 6 := by
      rw [div_pow]; ring_nf
    have h6' : (s ^ 2 / (2 * y) ^ 2) ^ 6 = (s ^ 6 / (2 * y) ^ 6) ^ 2 := by
      rw [show (s ^ 2 / (2 * y) ^ 2) ^ 6 = ((s ^ 2 / (2 * y) ^ 2) ^ 3) ^ 2 by ring, h6]
    have hp6 : 0 < (2 * y) ^ 6 := by
      have : (2 * y) ^ 6 = ((2 * y) ^ 2) ^ 3 := by ring
      rw [this]; positivity
    have hq : 1 / 2 < s ^ 6 / (2 * y) ^ 6 := by
      rw [lt_div_iff₀ hp6]; linarith
    rw [h6, h6']
    generalize s ^ 6 / (2 * y) ^ 6 = q at hq
    have hpos : 0 < 24 * e * (2 * q ^ 2 - q) / (2 * y) ^ 2 := by
      apply div_pos _ h2
      have : 0 < 2 * q ^ 2 - q := by nlinarith
      positivity
    have : 2 * y * (24 * e * (2 * q ^ 2 - q) / (2 * y) ^ 2) * y = 2 * y ^ 2 * (24 * e * (2 * q ^ 2 - q) / (2 * y) ^ 2) := by ring
    rw [this]
    positivity

/-- Within reach of a wall, with a constant that is not more than the sixth root of two: every wall repels. -/
theorem C91_repels {e s root : Rat} (he : 0 < e) (hs : 0 < s) (hroot0 : 0 < root) (hroot : root ^ 6 ≤ 2) (p : V3 Rat) (d : Axis) (b : Rat) (hb : p.at d ≠ b)
    (hnear : |p.at d - b| < root * (1 / 2) * s) :
    0 < (wallForce e s (root * (1 / 2) * s) p d b).at d * (p.at d - b) := by
  refine (C91_inward he hs p d b hb).2 hnear ?_
  have h1 : |2 * (p.at d - b)| < root * s := by
    rw [abs_mul, abs_of_pos (by norm_num : (0 : Rat) < 2)]; linarith
  have h2 : (2 * (p.at d - b)) ^ 6 < (root * s) ^ 6 := by
    have : (2 * (p.at d - b)) ^ 6 = |2 * (p.at d - b)| ^ 6 := by rw [pow_abs, abs_of_nonneg (by positivity)]
    rw [this]
    exact pow_lt_pow_left₀ h1 (abs_nonneg _) (by norm_num)
  rw [mul_pow] at h2
  have : root ^ 6 * s ^ 6 ≤ 2 * s ^ 6 := by
    have : 0 ≤ s ^ 6 := by positivity
    nlinarith
  linarith

/-- A particle on a lower wall, which belongs to the box: the force is not finite. -/
theorem C91_violated_on_the_wall (h : Tiling D cut R.maxSkin) (hpos : 0 < R.root) (hsig : 0 < R.sigma 0) (hskin : R.root * (1 / 2) * R.sigma 0 ≤ R.maxSkin)
    (hrefl : D.boundary = ⟨.reflective, .none, .none⟩) {r : V3 Nat} (hr : IsRank D r) {p : V3 Rat} (hp : InBox p (D.lo r) (D.hi r))
    (hwall : p.x = D.gMin.x) (f : V3 (Num Rat)) : (R.reflect D r 0 p f).x = .nonFinite := by
  have hmp : 0 < R.maxSkin := lt_of_lt_of_le (by positivity) hskin
  have hw := hmp.le
  have hglob := box_in_global h hw hr hp
  have hp' := inBox_iff_at.1 hp
  have hk : ljKernel p (mirrorPosition p .x (D.gMin.at .x)) (R.sigmaSquared 0) (R.epsilon24 0) = ⟨.nonFinite, .nonFinite, .nonFinite⟩ := by
    have e : mirrorPosition p .x (D.gMin.at .x) = p := by
      unfold mirrorPosition
      show p.put .x (p.x + 2 * (D.gMin.x - p.x)) = p
      rw [hwall]; unfold V3.put; cases p; simp only at hwall; simp [hwall]
    unfold ljKernel
    rw [e]
    have e0 : (p - p).inner (p - p) = 0 := by unfold V3.inner; simp
    dsimp only
    rw [e0]
    have e1 : (Num.fin 1 / Num.fin 0 : Num Rat) = .nonFinite := by decide +kernel
    rw [e1]
    simp [V3.scale]
  have hfirst : r.x = 0 := by
    by_contra hne
    have h1 := h.wide .x 0 (h.pos .x)
    have hri := isRank_iff.1 hr .x
    have h2 := cut_mono h hw (d := .x) (show 0 + 1 ≤ r.at .x by simp only [V3.at]; omega) (by omega)
    have h3 := (hp' .x).1
    rw [h.lo r hr] at h3
    rw [h.first] at h1
    have h4 : p.at .x = D.gMin.at .x := hwall
    linarith
  have hat : D.atMin .x r = true := by
    unfold RGD.atMin isNearRel
    rw [h.lo r hr, show r.at .x = 0 from hfirst, h.first, sub_self, abs_zero, decide_eq_true_eq]
    positivity
  have hin : inBoxB p D.gMin (D.gMax.put .x (D.gMin.at .x + R.maxSkin)) = true := by
    refine inBoxB_at.2 fun e => ⟨(hglob e).1, ?_⟩
    cases e with
    | x => rw [at_put_self]; show p.x < D.gMin.x + _; rw [hwall]; linarith
    | y => exact (hglob .y).2
    | z => exact (hglob .z).2
  have hone : R.reflectOne 0 p .x (D.gMin.at .x) f = f + ⟨.nonFinite, .nonFinite, .nonFinite⟩ := by
    unfold Reflection.reflectOne
    rw [if_pos, hk]
    show |p.x - D.gMin.x| < _
    rw [hwall, sub_self, abs_zero]
    positivity
  unfold Reflection.reflect
  simp only [List.foldl_cons, List.foldl_nil]
  have hyz : ∀ g : V3 (Num Rat), R.dimension D r 0 p (R.dimension D r 0 p g .y) .z = g := by
    intro g
    unfold Reflection.dimension
    rw [hrefl]
    rw [if_pos (by simp [V3.at]), if_pos (by simp [V3.at])]
  rw [hyz]
  unfold Reflection.dimension
  rw [hrefl, if_neg (by simp [V3.at])]
  dsimp only
  rw [hat, hin, Bool.and_self, if_pos rfl, hone]
  split
  · unfold Reflection.reflectOne
    split
    · show (f.x + Num.nonFinite) + _ = _
      simp
    · show f.x + Num.nonFinite = _
      simp
  · show f.x + Num.nonFinite = _
    simp

/-! ### Non-vacuity: two ranks, reflective along x -/

private def exReflD : RGD := RGD.init ⟨0, 0, 0⟩ ⟨10, 5, 5⟩ ⟨2, 1, 1⟩ ⟨.reflective, .periodic, .periodic⟩ 1 (1/5)
private def exRefl : Reflection := ⟨1122/1000, 1122/1000 / 2, fun _ => 1, fun _ => 1, fun _ => 24⟩
private theorem exRefl_ok : ReflectionOk exRefl (fun _ => 1) (fun _ => 1) [0] :=
  ⟨by decide +kernel, fun _ => rfl, fun _ => by norm_num [exRefl], fun _ => by norm_num [exRefl], fun _ _ => ⟨by decide, by decide⟩, by decide +kernel⟩

example (f : V3 (Num Rat)) : exRefl.reflect exReflD ⟨1, 0, 0⟩ 0 ⟨19/2, 1, 1⟩ f = f + (wallForces exReflD 1 1 (1122/1000 * (1/2) * 1) ⟨19/2, 1, 1⟩).fin :=
  C91_wall_forces_partial (C83_local_boxes_tile _ _ _ _ _ _ _ (by intro d; cases d <;> decide)
    (by intro d; cases d <;> norm_num [V3.at, exRefl])) (by decide +kernel) exRefl_ok (by simp) (by decide +kernel) (by decide +kernel)
    (by intro d; cases d <;> decide +kernel) f

/-- Half a sigma from the wall the force is 24 epsilon, away from the wall. -/
example : wallForces exReflD 1 1 (1122/1000 * (1/2) * 1) ⟨19/2, 1, 1⟩ = ⟨-24, 0, 0⟩ := by decide +kernel

example : (exRefl.root : Rat) ^ 6 ≤ 2 := by decide +kernel

private def exReflWall : RGD := RGD.init ⟨0, 0, 0⟩ ⟨10, 5, 5⟩ ⟨2, 1, 1⟩ ⟨.reflective, .none, .none⟩ 1 (1/5)

example : (exRefl.reflect exReflWall ⟨0, 0, 0⟩ 0 ⟨0, 1, 1⟩ ⟨.fin 0, .fin 0, .fin 0⟩).x = .nonFinite := by
  have h := C83_local_boxes_tile ⟨0, 0, 0⟩ ⟨10, 5, 5⟩ ⟨2, 1, 1⟩ ⟨.reflective, .none, .none⟩ 1 (1/5) exRefl.maxSkin (by intro d; cases d <;> decide)
    (by intro d; cases d <;> norm_num [V3.at, exRefl])
  exact C91_violated_on_the_wall (D := exReflWall) h (by decide +kernel) (by decide +kernel) (by decide +kernel) rfl
    (r := ⟨0, 0, 0⟩) (by decide +kernel) (by decide +kernel) (by decide +kernel) _

end Verif
