import Verif.Model.VerletClusterIter
import Verif.Lemmas.VerletClusterGrid
import Verif.Lemmas.LCRegion
/-! Iterating towers. -/
namespace Verif
open Spec

/-- The towers of VerletClusterLists between two rebuilds: every particle is in the tower of the position `old` it had at the last rebuild,
which is inside the halo box, and inside the box if the particle is owned; since then it moved by at most `m` along every axis.
No vector is longer than `size_t` can count. -/
structure VCLStorage (g : VCLGrid) (m : Rat) (cells vecs : List (List Particle)) : Prop where
  len : cells.length = g.tx * g.ty
  placed : ∀ i, ∀ p ∈ cells.getD i [], ∃ old : V3 Rat, InBox old g.haloMin g.haloMax ∧ g.to1D (g.towerAt old) = i ∧
    (p.own = .owned → InBox old g.bMin g.bMax) ∧ |p.pos.x - old.x| ≤ m ∧ |p.pos.y - old.y| ≤ m ∧ |p.pos.z - old.z| ≤ m
  small : ∀ l ∈ cells, l.length < 2 ^ 64
  vsmall : ∀ l ∈ vecs, l.length < 2 ^ 64
  vnum : vecs.length < 2 ^ 64

section
variable {g : VCLGrid} {ox oy : Nat}

/-- Positions inside of the box are in towers between the first and the last owned tower. -/
theorem VCLGrid.Ok.owned_tower (h : g.Ok ox oy) (he : g.Even) {p : V3 Rat} (hp : InBox p g.bMin g.bMax) :
    g.firstOwnedTower ≤ g.to1D (g.towerAt p) ∧ g.to1D (g.towerAt p) ≤ g.lastOwnedTower := by
  have hx : g.per = g.perX := by unfold VCLGrid.per VCLGrid.Even at *; omega
  have hy : g.per = g.perY := by unfold VCLGrid.per VCLGrid.Even at *; omega
  obtain ⟨⟨a1, a2⟩, ⟨a3, a4⟩, a5, a6⟩ := hp
  have axis : ∀ {bMin bMax side : Rat} {o n T : Nat} (hs : 0 < side) (hbox : side * o = bMax - bMin) (hT : T = o + 2 * n) (x : Rat),
      bMin ≤ x → x < bMax → n ≤ vclDimIndex bMin (bMin - g.il) (bMax + g.il) side n T x ∧
        vclDimIndex bMin (bMin - g.il) (bMax + g.il) side n T x < T - n := by
    intro bMin bMax side o n T hs hbox hT x h1 h2
    have hil := h.ilPos
    unfold vclDimIndex
    rw [if_neg (by linarith), if_neg (by linarith)]
    have l1 : (0 : Int) ≤ ⌊(x - bMin) * (1 / side)⌋ := by
      rw [Int.le_floor]
      push_cast
      rw [mul_one_div, le_div_iff₀ hs]
      linarith
    have l2 : ⌊(x - bMin) * (1 / side)⌋ < (o : Int) := by
      rw [Int.floor_lt]
      push_cast
      rw [mul_one_div, div_lt_iff₀ hs]
      linarith
    omega
  obtain ⟨b1, b2⟩ := axis h.sxPos h.boxX (by rw [hx]; exact h.tx : g.tx = ox + 2 * g.per) p.x a1 a2
  obtain ⟨b3, b4⟩ := axis h.syPos h.boxY (by rw [hy]; exact h.ty : g.ty = oy + 2 * g.per) p.y a3 a4
  rw [h.towerAt_eq]
  exact ⟨VCLGrid.to1D_mono b1 b3, VCLGrid.to1D_mono (le_of_lt b2) (le_of_lt b4)⟩

theorem VCLGrid.Ok.towerAt_mono (h : g.Ok ox oy) {p q : V3 Rat} (hx : p.x ≤ q.x) (hy : p.y ≤ q.y) :
    g.to1D (g.towerAt p) ≤ g.to1D (g.towerAt q) := by
  rw [h.towerAt_eq, h.towerAt_eq]
  exact VCLGrid.to1D_mono (vclDimIndex_mono h.sxPos hx) (vclDimIndex_mono h.syPos hy)

/-- A particle in the region that moved at most `m` is stored in a tower that the region iterator looks at. -/
theorem VCLGrid.Ok.region_tower (h : g.Ok ox oy) (he : g.Even) {m : Rat} {lo hi pos old : V3 Rat} (hold : InBox old g.haloMin g.haloMax)
    (hx : |pos.x - old.x| ≤ m) (hy : |pos.y - old.y| ≤ m) (hz : |pos.z - old.z| ≤ m)
    (hin : inBoxB pos (V3.maximum lo (g.bMin.addScalar (-g.il))) (V3.minimum hi (g.bMax.addScalar g.il)) = true) :
    let sMin := (V3.maximum lo (g.bMin.addScalar (-g.il))).addScalar (-m)
    let sMax := (V3.minimum hi (g.bMax.addScalar g.il)).addScalar m
    boxesOverlap (g.towerBox (g.towerAt old)).1 (g.towerBox (g.towerAt old)).2 sMin sMax = true ∧
    g.to1D (g.towerAt sMin) ≤ g.to1D (g.towerAt old) ∧ g.to1D (g.towerAt old) ≤ g.to1D (g.towerAt sMax) := by
  intro sMin sMax
  rw [inBoxB_iff, decide_eq_true_eq] at hin
  obtain ⟨⟨x1, x2⟩, ⟨y1, y2⟩, z1, z2⟩ := hin
  obtain ⟨⟨u1, u2⟩, ⟨v1, v2⟩, w1, w2⟩ := h.in_towerBox he hold
  rw [abs_le] at hx hy hz
  have e1 : sMin.x = (V3.maximum lo (g.bMin.addScalar (-g.il))).x + -m := rfl
  have e2 : sMin.y = (V3.maximum lo (g.bMin.addScalar (-g.il))).y + -m := rfl
  have e3 : sMin.z = (V3.maximum lo (g.bMin.addScalar (-g.il))).z + -m := rfl
  have e4 : sMax.x = (V3.minimum hi (g.bMax.addScalar g.il)).x + m := rfl
  have e5 : sMax.y = (V3.minimum hi (g.bMax.addScalar g.il)).y + m := rfl
  have e6 : sMax.z = (V3.minimum hi (g.bMax.addScalar g.il)).z + m := rfl
  refine ⟨?_, h.towerAt_mono (by linarith) (by linarith), h.towerAt_mono (by linarith) (by linarith)⟩
  simp only [boxesOverlap, Bool.and_eq_true, decide_eq_true_eq]
  exact ⟨⟨⟨by linarith, by linarith⟩, by linarith, by linarith⟩, by linarith, by linarith⟩

theorem VCLGrid.Ok.last_lt (h : g.Ok ox oy) : g.lastOwnedTower < g.tx * g.ty := by
  have := h.per_pos
  have := h.dims
  exact VCLGrid.to1D_lt (by show g.tx - g.per < g.tx; omega) (by show g.ty - g.per < g.ty; omega)

end
end Verif
