import Verif.Lemmas.SortDir
import Verif.Props.C17
/-!
# C18 — sorting and early exit skip only pairs farther apart than the sorting cutoff

If a cell (pair) has more than `threshold` particles the code sorts by projection and leaves the inner loop at the first
particle whose projection is more than `cutoff` away. The theorems hold for every threshold, in particular for sorted cells.
For two cells the sorting direction must point from the first to the second (`NotBehind`). The last theorems show that the
linked-cells traversals choose it like this, and that without it close pairs are lost.
-/
namespace Verif
open Spec

section
variable {P : Type} [DecidableEq P] {pos : P → V3 Rat} {isHalo : P → Bool} {threshold : Nat} {cutoff : Rat} {dir : V3 Rat}

/-- One cell, Newton 3: every pair within the sorting cutoff is processed exactly once, sorted or not. -/
theorem C18_cell_newton3_near_pairs {cell : PCell P} {view : List (Rat × P)} {a b : P} (hnd : cell.particles.Nodup)
    (hv : IsSortedView pos dir cell.particles view) (hf : FlagOk isHalo cell) (ha : a ∈ cell.particles)
    (hb : b ∈ cell.particles) (hab : a ≠ b) (hh : isHalo a = false ∨ isHalo b = false) (hn : Near pos cutoff a b) :
    timesUnordered (processCell isHalo true threshold cutoff dir cell view) a b = 1 :=
  cell_newton3 hnd hv hf ha hb hab hh (.inr hn)

/-- One cell, no Newton 3: within the sorting cutoff, every non-halo particle is first partner exactly once. -/
theorem C18_cell_no_newton3_near_pairs {cell : PCell P} {view : List (Rat × P)} {a b : P} (hnd : cell.particles.Nodup)
    (hv : IsSortedView pos dir cell.particles view) (hf : FlagOk isHalo cell) (ha : a ∈ cell.particles)
    (hb : b ∈ cell.particles) (hab : a ≠ b) (hn : Near pos cutoff a b) :
    timesDirected (processCell isHalo false threshold cutoff dir cell view) a b = if isHalo a then 0 else 1 :=
  cell_directed hnd hv hf ha hb hab (.inr hn)

/-- Two cells, Newton 3, cell 2 in sorting direction from cell 1. -/
theorem C18_pair_newton3_near_pairs {cell1 cell2 : PCell P} {view1 view2 : List (Rat × P)} {a b : P} (bidirectional : Bool)
    (hnd1 : cell1.particles.Nodup) (hnd2 : cell2.particles.Nodup) (hdis : ∀ p ∈ cell1.particles, p ∉ cell2.particles)
    (hv1 : IsSortedView pos dir cell1.particles view1) (hv2 : IsSortedView pos dir cell2.particles view2)
    (hf1 : FlagOk isHalo cell1) (hf2 : FlagOk isHalo cell2)
    (ha : a ∈ cell1.particles) (hb : b ∈ cell2.particles) (hh : isHalo a = false ∨ isHalo b = false)
    (hdir : NotBehind pos dir cutoff cell1.particles cell2.particles) (hn : Near pos cutoff a b) :
    timesUnordered (processCellPair true bidirectional threshold cutoff dir cell1 cell2 view1 view2) a b = 1 :=
  pair_newton3 bidirectional hnd1 hnd2 hdis hv1 hv2 hf1 hf2 ha hb hh (.inr (.inr ⟨hn, hdir⟩))

/-- Two cells, no Newton 3, cell 2 in sorting direction from cell 1. -/
theorem C18_pair_no_newton3_near_pairs {cell1 cell2 : PCell P} {view1 view2 : List (Rat × P)} {a b : P}
    (bidirectional : Bool)
    (hnd1 : cell1.particles.Nodup) (hnd2 : cell2.particles.Nodup) (hdis : ∀ p ∈ cell1.particles, p ∉ cell2.particles)
    (hv1 : IsSortedView pos dir cell1.particles view1) (hv2 : IsSortedView pos dir cell2.particles view2)
    (hf1 : FlagOk isHalo cell1) (hf2 : FlagOk isHalo cell2)
    (ha : a ∈ cell1.particles) (hb : b ∈ cell2.particles)
    (hdir : NotBehind pos dir cutoff cell1.particles cell2.particles) (hn : Near pos cutoff a b) :
    (isHalo a = false →
      timesDirected (processCellPair false bidirectional threshold cutoff dir cell1 cell2 view1 view2) a b = 1) ∧
    (isHalo b = false →
      timesDirected (processCellPair false bidirectional threshold cutoff dir cell1 cell2 view1 view2) b a =
        if bidirectional then 1 else 0) :=
  pair_directed bidirectional hnd1 hnd2 hdis hv1 hv2 hf1 hf2 ha hb (.inr (.inr ⟨hn, hdir⟩))
end

/-- The linked-cells traversals c08, c18 and c01 hand the direction from the first to the second cell to the cell functor. -/
theorem C18_traversals_pass_cell_direction (dims : V3 Nat) (cl : V3 Rat) (il : Rat)
    (hil : 0 < il) (hx : 0 < cl.x) (hy : 0 < cl.y) (hz : 0 < cl.z)
    (hdx : 2 * (overlapOf il cl).x + 1 ≤ dims.x) (hdy : 2 * (overlapOf il cl).y + 1 ≤ dims.y)
    (hdz : 2 * (overlapOf il cl).z + 1 ≤ dims.z) (a b : V3 Nat) (ha : InGrid a dims) (hb : InGrid b dims) (dir : V3 Rat)
    (hop : CellOp.pair (threeToOneD a dims) (threeToOneD b dims) dir ∈
      (lcC08 dims cl il).flatten.flatten ++ (lcC18 dims cl il).flatten.flatten ++ (lcC01 dims cl il).flatten.flatten) :
    dir = cellDirection cl a b := by
  have h : C18Dims dims cl il := ⟨⟨hil, hx, hy, hz⟩, hdx, hdy, hdz⟩
  rw [List.mem_append, List.mem_append] at hop
  rcases hop with (hop | hop) | hop
  · exact lcC08_dir h.pos ha hb hop
  · exact lcC18_dir h ha hb hop
  · exact lcC01_dir h ha hb hop

/-- With this direction, particles that were put into the two cells by position and have since moved by at most half the
sorting cutoff (the interaction length) satisfy `NotBehind`. `home p` is the position by which `p` was put into its cell. -/
theorem C18_cell_direction_not_behind {P : Type} (bMin bMax : V3 Rat) (il csf : Rat) (hg : GoodBox bMin bMax il csf)
    (pos home : P → V3 Rat) (cell1 cell2 : List P) (a b : V3 Nat)
    (h1 : ∀ p ∈ cell1, (CellBlock.rebuild id bMin bMax il csf).indexOfPosition id (home p) = a)
    (h2 : ∀ p ∈ cell2, (CellBlock.rebuild id bMin bMax il csf).indexOfPosition id (home p) = b)
    (hm : ∀ p ∈ cell1 ++ cell2, 4 * distSq (pos p) (home p) ≤ il * il) :
    NotBehind pos (cellDirection (CellBlock.rebuild id bMin bMax il csf).cellLength a b) il cell1 cell2 := by
  intro p hp q hq hlt
  refine not_far_behind (p0 := home p) (q0 := home q) ?_ (hm p (by simp [hp])) (hm q (by simp [hq])) hlt
  have e1 := h1 p hp
  have e2 := h2 q hq
  subst e1 e2
  have k1 := axis_ahead (il := il) hg.hx hg.csfPos (home p).x (home q).x
  have k2 := axis_ahead (il := il) hg.hy hg.csfPos (home p).y (home q).y
  have k3 := axis_ahead (il := il) hg.hz hg.csfPos (home p).z (home q).z
  simp only [V3.dot, cellDirection, CellBlock.indexOfPosition, CellBlock.cellLength, CellBlock.rebuild]
  nlinarith

/-- Without `NotBehind` a pair within the cutoff is lost: three particles on the x-axis, cell 1 = {10}, cell 2 = {0, 9},
sorting direction `+x`, cutoff 2: the particle at 0 ends the loop before the particle at 9 is reached. -/
theorem C18_wrong_direction_loses_pairs :
    ∃ (pos : Nat → V3 Rat) (dir : V3 Rat) (cell1 cell2 : PCell Nat) (view1 view2 : List (Rat × Nat)) (a b : Nat),
      IsSortedView pos dir cell1.particles view1 ∧ IsSortedView pos dir cell2.particles view2 ∧
      a ∈ cell1.particles ∧ b ∈ cell2.particles ∧ FlagOk (fun _ => false) cell1 ∧ FlagOk (fun _ => false) cell2 ∧
      Near pos 2 a b ∧ timesUnordered (processCellPair true true 0 2 dir cell1 cell2 view1 view2) a b = 0 := by
  refine ⟨fun n => ⟨n, 0, 0⟩, ⟨1, 0, 0⟩, ⟨[10], true⟩, ⟨[0, 9], true⟩, [(10, 10)], [(0, 0), (9, 9)], 10, 9,
    ⟨?_, by decide +kernel⟩, ⟨?_, by decide +kernel⟩, by decide, by decide, fun _ _ _ => rfl, fun _ _ _ => rfl,
    by unfold Near; decide +kernel, by decide +kernel⟩
  · simp [V3.dot]
  · simp [V3.dot]

/-! Non-vacuity: a sorted cell of three particles (threshold 0), and a pair of cells. -/

private def exPos (n : Nat) : V3 Rat := ⟨n, 0, 0⟩

example : timesUnordered (processCell (fun _ => false) true 0 1 ⟨1, 0, 0⟩ ⟨[2, 0, 1], true⟩ [(0, 0), (1, 1), (2, 2)]) 2 1 = 1 :=
  C18_cell_newton3_near_pairs (pos := exPos) (by decide)
    ⟨by simp only [exPos, V3.dot]; decide +kernel, by decide +kernel⟩ (fun _ _ _ => rfl)
    (by decide) (by decide) (by decide) (by decide) (by unfold Near; decide +kernel)

example : timesUnordered (processCellPair true true 0 2 ⟨1, 0, 0⟩ ⟨[0, 1], true⟩ ⟨[3, 2], true⟩ [(0, 0), (1, 1)] [(2, 2), (3, 3)]) 1 3 = 1 :=
  C18_pair_newton3_near_pairs (pos := exPos) (isHalo := fun _ => false) true (by decide) (by decide) (by decide)
    ⟨by simp only [exPos, V3.dot]; decide +kernel, by decide +kernel⟩
    ⟨by simp only [exPos, V3.dot]; decide +kernel, by decide +kernel⟩ (fun _ _ _ => rfl) (fun _ _ _ => rfl)
    (by decide) (by decide) (by decide) (by unfold NotBehind; decide +kernel) (by unfold Near; decide +kernel)

example : ∃ dir, CellOp.pair (threeToOneD ⟨0, 0, 1⟩ ⟨3, 3, 3⟩) (threeToOneD ⟨0, 0, 0⟩ ⟨3, 3, 3⟩) dir ∈
    (lcC08 ⟨3, 3, 3⟩ ⟨1, 1, 1⟩ 1).flatten.flatten := ⟨⟨0, 0, -1⟩, by decide +kernel⟩

end Verif
