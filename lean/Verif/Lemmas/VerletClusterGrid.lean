import Verif.Model.VerletClusterLists
import Verif.Spec.Geometry
import Verif.Lemmas.Basic
import Mathlib.Tactic.Linarith
import Mathlib.Tactic.Positivity
import Mathlib.Tactic.FieldSimp
/-! The grid of towers. -/
namespace Verif
open Spec

/-- A grid as `vclEstimate` makes it: `ox`, `oy` towers fill the box exactly, `perX`, `perY` more on each side. -/
structure VCLGrid.Ok (g : VCLGrid) (ox oy : Nat) : Prop where
  oxPos : 0 < ox
  oyPos : 0 < oy
  sxPos : 0 < g.sideX
  syPos : 0 < g.sideY
  ilPos : 0 < g.il
  boxX : g.sideX * ox = g.bMax.x - g.bMin.x
  boxY : g.sideY * oy = g.bMax.y - g.bMin.y
  boxZ : g.bMin.z < g.bMax.z
  tx : g.tx = ox + 2 * g.perX
  ty : g.ty = oy + 2 * g.perY

theorem ceil_toNat_pos {a b : Rat} (ha : 0 < a) (hb : 0 < b) : 0 < ⌈a / b⌉ := Int.ceil_pos.2 (div_pos ha hb)

theorem vclEstimate_ok (cbrt : Rat → Rat) (hcbrt : ∀ x, 0 < x → 0 < cbrt x) (bMin bMax : V3 Rat) (il : Rat) (clusterSize num : Nat)
    (hx : bMin.x < bMax.x) (hy : bMin.y < bMax.y) (hz : bMin.z < bMax.z) (hil : 0 < il) (hc : 0 < clusterSize) (hn : 0 < num) :
    ∃ ox oy, (vclEstimate cbrt bMin bMax il clusterSize num).Ok ox oy := by
  unfold vclEstimate
  rw [if_neg (by omega)]
  simp only
  have hX : 0 < bMax.x - bMin.x := by linarith
  have hY : 0 < bMax.y - bMin.y := by linarith
  have hZ : 0 < bMax.z - bMin.z := by linarith
  have hnum : (0 : Rat) < num := Nat.cast_pos.2 hn
  have hcs : (0 : Rat) < clusterSize := Nat.cast_pos.2 hc
  have hopt := hcbrt (clusterSize / (num / ((bMax.x - bMin.x) * (bMax.y - bMin.y) * (bMax.z - bMin.z)))) (by positivity)
  generalize cbrt (clusterSize / (num / ((bMax.x - bMin.x) * (bMax.y - bMin.y) * (bMax.z - bMin.z)))) = s at *
  have h1 := ceil_toNat_pos hX hopt
  have h2 := ceil_toNat_pos hY hopt
  generalize ⌈(bMax.x - bMin.x) / s⌉ = ox at *
  generalize ⌈(bMax.y - bMin.y) / s⌉ = oy at *
  have c1 : ((ox.toNat : Nat) : Rat) = (ox : Rat) := by
    rw [show ((ox.toNat : Nat) : Rat) = ((ox.toNat : Int) : Rat) by norm_cast, Int.toNat_of_nonneg (by omega)]
  have c2 : ((oy.toNat : Nat) : Rat) = (oy : Rat) := by
    rw [show ((oy.toNat : Nat) : Rat) = ((oy.toNat : Int) : Rat) by norm_cast, Int.toNat_of_nonneg (by omega)]
  have r1 : (0 : Rat) < ox := Int.cast_pos.2 h1
  have r2 : (0 : Rat) < oy := Int.cast_pos.2 h2
  have k1 := ceil_toNat_pos hil (div_pos hX r1)
  have k2 := ceil_toNat_pos hil (div_pos hY r2)
  refine ⟨ox.toNat, oy.toNat, by omega, by omega, div_pos hX r1, div_pos hY r2, hil, ?_, ?_, hz, ?_, ?_⟩
  · simp only [c1]; field_simp
  · simp only [c2]; field_simp
  · simp only [VCLGrid.perX]; omega
  · simp only [VCLGrid.perY]; omega

section
variable {bMin bMax il side : Rat} {o n T : Nat}

theorem vclDimIndex_lt {lo hi : Rat} (hT : 0 < T) (x : Rat) : vclDimIndex bMin lo hi side n T x < T := by
  unfold vclDimIndex
  by_cases h1 : x ≥ hi
  · rw [if_pos h1]; omega
  · rw [if_neg h1]
    by_cases h2 : x < lo
    · rw [if_pos h2]; omega
    · rw [if_neg h2]; omega

theorem vclDimIndex_mono {lo hi : Rat} (hs : 0 < side) {x y : Rat} (hxy : x ≤ y) :
    vclDimIndex bMin lo hi side n T x ≤ vclDimIndex bMin lo hi side n T y := by
  unfold vclDimIndex
  by_cases h1 : y ≥ hi
  · rw [if_pos h1]
    by_cases h2 : x ≥ hi
    · rw [if_pos h2]
    · rw [if_neg h2]; split <;> omega
  · rw [if_neg h1, if_neg (c := x ≥ hi) (by intro h; exact h1 (le_trans h hxy))]
    by_cases h2 : x < lo
    · rw [if_pos h2]; omega
    · rw [if_neg h2, if_neg (c := y < lo) (by intro h; exact h2 (lt_of_le_of_lt hxy h))]
      have : ⌊(x - bMin) * (1 / side)⌋ ≤ ⌊(y - bMin) * (1 / side)⌋ :=
        Int.floor_le_floor (mul_le_mul_of_nonneg_right (by linarith) (by positivity))
      omega

/-- A position that the bounding box of tower `i` contains belongs to tower `i`. -/
theorem vclDimIndex_of_box {lo hi : Rat} (hs : 0 < side) {x : Rat} {i : Nat} (hi' : i < T) (hlo : lo ≤ x) (hhi : x < hi)
    (h1 : bMin - side * n + side * i ≤ x) (h2 : x < bMin - side * n + side * i + side) :
    vclDimIndex bMin lo hi side n T x = i := by
  unfold vclDimIndex
  rw [if_neg (not_le.2 hhi), if_neg (not_lt.2 hlo)]
  have : ⌊(x - bMin) * (1 / side)⌋ = (i : Int) - n := by
    rw [Int.floor_eq_iff]
    push_cast
    rw [mul_one_div]
    constructor
    · rw [le_div_iff₀ hs]; linarith
    · rw [div_lt_iff₀ hs]; linarith
  omega

/-- If the number of towers per interaction length is the right one for this dimension, every position of the halo box lies in the bounding
box of its tower. -/
theorem vclDimIndex_box (hs : 0 < side) (hil : 0 < il) (ho : 0 < o) (hbox : side * o = bMax - bMin) (hn : n = ⌈il / side⌉.toNat)
    (hT : T = o + 2 * n) {x : Rat} (hlo : bMin - il ≤ x) (hhi : x < bMax + il) :
    let i := vclDimIndex bMin (bMin - il) (bMax + il) side n T x
    bMin - side * n + side * i ≤ x ∧ x < bMin - side * n + side * i + side := by
  intro i
  have hcp := ceil_toNat_pos hil hs
  have hnI : (n : Int) = ⌈il / side⌉ := by omega
  have hle : il ≤ side * n := by
    have : il / side ≤ n := by
      have := Int.le_ceil (il / side)
      rw [← hnI] at this
      exact_mod_cast this
    rw [div_le_iff₀ hs] at this
    linarith
  have hi : (i : Int) = ⌊(x - bMin) * (1 / side)⌋ + n := by
    have e : i = min (⌊(x - bMin) * (1 / side)⌋ + n).toNat (T - 1) := by
      show vclDimIndex _ _ _ _ _ _ _ = _
      unfold vclDimIndex
      rw [if_neg (not_le.2 hhi), if_neg (not_lt.2 hlo)]
    have l1 : -(n : Int) ≤ ⌊(x - bMin) * (1 / side)⌋ := by
      rw [Int.le_floor]
      push_cast
      rw [mul_one_div, le_div_iff₀ hs]
      linarith
    have l2 : ⌊(x - bMin) * (1 / side)⌋ < (o : Int) + n := by
      rw [Int.floor_lt]
      push_cast
      rw [mul_one_div, div_lt_iff₀ hs]
      linarith
    omega
  have f1 := Int.floor_le ((x - bMin) * (1 / side))
  have f2 := Int.lt_floor_add_one ((x - bMin) * (1 / side))
  have hir : (i : Rat) = (⌊(x - bMin) * (1 / side)⌋ : Rat) + n := by exact_mod_cast hi
  rw [mul_one_div] at f1 f2
  rw [le_div_iff₀ hs] at f1
  rw [div_lt_iff₀ hs] at f2
  constructor
  · rw [hir, mul_one_div]; linarith
  · rw [hir, mul_one_div]; linarith

end

section
variable {g : VCLGrid} {ox oy : Nat}

theorem VCLGrid.Ok.perX_pos (h : g.Ok ox oy) : 0 < g.perX := by
  have := ceil_toNat_pos h.ilPos h.sxPos
  unfold VCLGrid.perX; omega

theorem VCLGrid.Ok.perY_pos (h : g.Ok ox oy) : 0 < g.perY := by
  have := ceil_toNat_pos h.ilPos h.syPos
  unfold VCLGrid.perY; omega

theorem VCLGrid.Ok.per_pos (h : g.Ok ox oy) : 0 < g.per := lt_of_lt_of_le h.perX_pos (le_max_left _ _)

theorem VCLGrid.Ok.dims (h : g.Ok ox oy) : 3 ≤ g.tx ∧ 3 ≤ g.ty := by
  have := h.perX_pos
  have := h.perY_pos
  have := h.tx
  have := h.ty
  have := h.oxPos
  have := h.oyPos
  omega

theorem VCLGrid.Ok.not_one (h : g.Ok ox oy) : ¬ g.tx * g.ty = 1 := by
  have := h.dims
  intro h1
  have := Nat.eq_one_of_mul_eq_one_right h1
  omega

theorem VCLGrid.Ok.towerAt_eq (h : g.Ok ox oy) (p : V3 Rat) :
    g.towerAt p = (vclDimIndex g.bMin.x (g.bMin.x - g.il) (g.bMax.x + g.il) g.sideX g.per g.tx p.x,
      vclDimIndex g.bMin.y (g.bMin.y - g.il) (g.bMax.y + g.il) g.sideY g.per g.ty p.y) := by
  unfold VCLGrid.towerAt
  rw [if_neg h.not_one]
  rfl

theorem VCLGrid.Ok.towerAt_lt (h : g.Ok ox oy) (p : V3 Rat) : (g.towerAt p).1 < g.tx ∧ (g.towerAt p).2 < g.ty := by
  rw [h.towerAt_eq]
  have := h.dims
  exact ⟨vclDimIndex_lt (by omega) _, vclDimIndex_lt (by omega) _⟩

theorem VCLGrid.to1D_lt {t : Nat × Nat} (h1 : t.1 < g.tx) (h2 : t.2 < g.ty) : g.to1D t < g.tx * g.ty := by
  unfold VCLGrid.to1D
  have : (t.2 + 1) * g.tx ≤ g.ty * g.tx := Nat.mul_le_mul_right _ h2
  rw [Nat.add_mul] at this
  rw [Nat.mul_comm g.tx]
  omega

theorem VCLGrid.to2D_to1D {t : Nat × Nat} (h1 : t.1 < g.tx) : g.to2D (g.to1D t) = t := by
  unfold VCLGrid.to2D VCLGrid.to1D
  rw [if_neg (by omega), Nat.add_mul_mod_self_right, Nat.mod_eq_of_lt h1, Nat.add_mul_div_right _ _ (by omega), Nat.div_eq_of_lt h1,
    Nat.zero_add]

theorem VCLGrid.to1D_inj {t t' : Nat × Nat} (h1 : t.1 < g.tx) (h2 : t'.1 < g.tx) : g.to1D t = g.to1D t' ↔ t = t' := by
  constructor
  · intro h
    have := congrArg g.to2D h
    rwa [to2D_to1D h1, to2D_to1D h2] at this
  · rintro rfl; rfl

theorem VCLGrid.to2D_lt {i : Nat} (hi : i < g.tx * g.ty) : (g.to2D i).1 < g.tx ∧ (g.to2D i).2 < g.ty := by
  have ht : 0 < g.tx := Nat.pos_of_ne_zero (by rintro h; rw [h] at hi; omega)
  unfold VCLGrid.to2D
  rw [if_neg (by omega)]
  exact ⟨Nat.mod_lt _ ht, Nat.div_lt_of_lt_mul hi⟩

theorem VCLGrid.to1D_to2D {i : Nat} (hi : i < g.tx * g.ty) : g.to1D (g.to2D i) = i := by
  have ht : 0 < g.tx := Nat.pos_of_ne_zero (by rintro h; rw [h] at hi; omega)
  unfold VCLGrid.to2D VCLGrid.to1D
  rw [if_neg (by omega), Nat.mul_comm]
  exact Nat.mod_add_div _ _

theorem VCLGrid.to1D_mono {t t' : Nat × Nat} (h1 : t.1 ≤ t'.1) (h2 : t.2 ≤ t'.2) : g.to1D t ≤ g.to1D t' := by
  unfold VCLGrid.to1D
  exact Nat.add_le_add h1 (Nat.mul_le_mul_right _ h2)

/-- A position in the bounding box of a tower and in the halo box belongs to that tower. -/
theorem VCLGrid.Ok.towerAt_of_box (h : g.Ok ox oy) {t : Nat × Nat} (h1 : t.1 < g.tx) (h2 : t.2 < g.ty) {p : V3 Rat}
    (hp : InBox p g.haloMin g.haloMax) (hb : InBox p (g.towerBox t).1 (g.towerBox t).2) : g.towerAt p = t := by
  rw [h.towerAt_eq]
  obtain ⟨⟨a1, a2⟩, ⟨a3, a4⟩, -⟩ := hp
  obtain ⟨⟨b1, b2⟩, ⟨b3, b4⟩, -⟩ := hb
  exact Prod.ext (vclDimIndex_of_box h.sxPos h1 a1 a2 b1 b2) (vclDimIndex_of_box h.syPos h2 a3 a4 b3 b4)

/-- The numbers of halo towers in x and y agree, as the code assumes (ClusterTowerBlock2D.h:97-104). -/
def VCLGrid.Even (g : VCLGrid) : Prop := g.perX = g.perY

/-- Then a position of the halo box lies in the bounding box of its tower. -/
theorem VCLGrid.Ok.in_towerBox (h : g.Ok ox oy) (he : g.Even) {p : V3 Rat} (hp : InBox p g.haloMin g.haloMax) :
    InBox p (g.towerBox (g.towerAt p)).1 (g.towerBox (g.towerAt p)).2 := by
  have hx : g.per = g.perX := by unfold VCLGrid.per VCLGrid.Even at *; omega
  have hy : g.per = g.perY := by unfold VCLGrid.per VCLGrid.Even at *; omega
  rw [h.towerAt_eq]
  obtain ⟨⟨a1, a2⟩, ⟨a3, a4⟩, a5⟩ := hp
  exact ⟨vclDimIndex_box h.sxPos h.ilPos h.oxPos h.boxX hx (by rw [hx]; exact h.tx) a1 a2,
    vclDimIndex_box h.syPos h.ilPos h.oyPos h.boxY hy (by rw [hy]; exact h.ty) a3 a4, a5⟩

end
end Verif
