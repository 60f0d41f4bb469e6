import Verif.Lemmas.LCWhole
import Verif.Lemmas.ExampleStore
/-!
# C51 — a linked-cells traversal lets every owned particle feel every other particle within the cutoff exactly once

From positions to functor calls, for all pairwise traversals of linked cells (c08, c18, c01, c04, c04_HCP, sliced, sliced_balanced,
sliced_c02), both data layouts, with and without Newton 3, any sorting threshold, any cell size factor.

`cells` is the cell storage. `home p` is the position by which `p` was sorted into its cell, `pos p` its present position; since then
it moved by at most half the skin. `f.run .. a b` counts how often `a` receives the contribution of `b`.
-/
namespace Verif
open Spec

/-- The configuration of the cell functor that goes with a traversal: the sorting cutoff is the interaction length (e.g.
LCC08CellHandler.h:61-62), the views are sorted; `lc_c01` is not used with Newton 3 (LCC01Traversal.h:125-128). -/
structure FunctorFor {P : Type} (t : LCTraversal) (pos : P → V3 Rat) (il : Rat) (f : CellFunctorCfg P) : Prop where
  cutoff : f.cutoff = il
  bidirectional : f.bidirectional = t.bidirectional
  c01 : t = .c01 → f.newton3 = false
  sorts : ∀ dir l, IsSortedView pos dir l (f.sorted dir l)

section
variable {P : Type} [DecidableEq P]

theorem FunctorFor.both {t : LCTraversal} {pos : P → V3 Rat} {il : Rat} {f : CellFunctorCfg P} (h : FunctorFor t pos il f) :
    (f.newton3 || f.bidirectional) = t.bidirectional := by
  rw [h.bidirectional]
  cases t <;> simp [LCTraversal.bidirectional]
  exact h.c01 rfl

/-- Every particle that is not a halo particle and was sorted into the box receives the contribution of every other stored particle
(owned or halo) within the cutoff exactly once. -/
theorem C51_linked_cells_exactly_once (bMin bMax : V3 Rat) (cutoff skin csf : Rat) (hcut : 0 ≤ cutoff) (hskin : 0 ≤ skin)
    (hbox : GoodBox bMin bMax (cutoff + skin) csf) (t : LCTraversal) (pos home : P → V3 Rat) (f : CellFunctorCfg P)
    (cells : List (List P)) (a b : P) :
    let blk := CellBlock.rebuild id bMin bMax (cutoff + skin) csf
    t.Applicable blk.dims blk.cellLength (cutoff + skin) →
    FunctorFor t pos (cutoff + skin) f →
    SortedIn blk home cells →
    (∀ p ∈ cells.flatten, 4 * distSq (pos p) (home p) ≤ skin * skin) →
    a ∈ cells.flatten → b ∈ cells.flatten → a ≠ b →
    f.isHalo a = false → InBox (home a) bMin bMax →
    distSq (pos a) (pos b) ≤ cutoff * cutoff →
    timesReceived (f.run (lcCells blk cells) (t.ops blk.dims blk.cellLength (cutoff + skin))) a b = 1 := by
  intro blk ht hf hs hm ha hb hab hh hin hd
  have facts := lcTraversal_facts hbox t ht
  have hm' : ∀ p ∈ cells.flatten, 4 * distSq (pos p) (home p) ≤ (cutoff + skin) * (cutoff + skin) := fun p hp => by
    have := hm p hp; nlinarith
  have hn : Near pos f.cutoff a b := by unfold Near; rw [hf.cutoff]; nlinarith
  have hbo : (f.newton3 || f.bidirectional) = t.bidirectional := hf.both
  unfold CellFunctorCfg.run
  rw [timesReceived_flatMap_indicator (q := hits t.bidirectional
    (threeToOneD (blk.indexOfPosition id (home a)) blk.dims) (threeToOneD (blk.indexOfPosition id (home b)) blk.dims))]
  · exact facts.once _ _ (home_near hcut hskin hd (hm a ha) (hm b hb)) hin
  · intro op hop
    obtain ⟨ma, la⟩ := mem_own_cell hs ha
    obtain ⟨mb, lb⟩ := mem_own_cell hs hb
    rw [← hbo]
    refine op_received (cells_ok hs) hf.sorts hab ma mb ?_ hh hn (validOp_of (facts.valid op hop)) ?_
    · rw [(cellAt_lcCells _).2 (by simpa using la), Bool.not_eq_true', ← Bool.not_eq_true]
      simp only [Int.toNat_natCast]
      have hd := hbox.dims_ge
      have hg : InGrid (blk.indexOfPosition id (home a)) blk.dims := hbox.inGrid (home a)
      rw [cellCanContainHalo_iff (b := blk) rfl rfl hd.1 hd.2.1 hd.2.2 hg]
      exact hbox.not_halo hin
    · rintro i j dir rfl
      rw [hf.cutoff]
      exact lc_notBehind hbox facts hs hm' hop

/-- No particle ever receives the contribution of another particle twice, wherever the two are and whatever they are. -/
theorem C51_linked_cells_at_most_once (bMin bMax : V3 Rat) (cutoff skin csf : Rat)
    (hbox : GoodBox bMin bMax (cutoff + skin) csf) (t : LCTraversal) (pos home : P → V3 Rat) (f : CellFunctorCfg P)
    (cells : List (List P)) (a b : P) :
    let blk := CellBlock.rebuild id bMin bMax (cutoff + skin) csf
    t.Applicable blk.dims blk.cellLength (cutoff + skin) →
    FunctorFor t pos (cutoff + skin) f →
    SortedIn blk home cells → a ≠ b →
    timesReceived (f.run (lcCells blk cells) (t.ops blk.dims blk.cellLength (cutoff + skin))) a b ≤ 1 := by
  intro blk ht hf hs hab
  have facts := lcTraversal_facts hbox t ht
  have hbo : (f.newton3 || f.bidirectional) = t.bidirectional := hf.both
  refine le_trans (timesReceived_flatMap_le (q := hits t.bidirectional
    (threeToOneD (blk.indexOfPosition id (home a)) blk.dims) (threeToOneD (blk.indexOfPosition id (home b)) blk.dims)) ?_)
    (facts.most _ _ (hbox.inGrid _) (hbox.inGrid _))
  intro op hop
  rw [← hbo]
  exact op_received_le (cells_ok hs) hf.sorts hab (validOp_of (facts.valid op hop))

/-- Every functor call gets two different stored particles, and the Newton 3 flag of the configuration. -/
theorem C51_linked_cells_calls (bMin bMax : V3 Rat) (cutoff skin csf : Rat)
    (hbox : GoodBox bMin bMax (cutoff + skin) csf) (t : LCTraversal) (pos home : P → V3 Rat) (f : CellFunctorCfg P)
    (cells : List (List P)) (c : PairCall P) :
    let blk := CellBlock.rebuild id bMin bMax (cutoff + skin) csf
    t.Applicable blk.dims blk.cellLength (cutoff + skin) →
    FunctorFor t pos (cutoff + skin) f →
    SortedIn blk home cells →
    c ∈ f.run (lcCells blk cells) (t.ops blk.dims blk.cellLength (cutoff + skin)) →
    c.p ∈ cells.flatten ∧ c.q ∈ cells.flatten ∧ c.p ≠ c.q ∧ c.newton3 = f.newton3 := by
  intro blk ht hf hs hc
  have facts := lcTraversal_facts hbox t ht
  obtain ⟨op, hop, hc⟩ := List.mem_flatMap.1 hc
  have mem : ∀ k : Int, ∀ p ∈ (cellAt (lcCells blk cells) k).particles, p ∈ cells.flatten := by
    intro k p hp
    rw [(cellAt_lcCells k).1] at hp
    exact mem_flatten_getD'.2 ⟨_, hp⟩
  obtain ⟨i, j, hi, hj, hne, hn⟩ := op_calls (cells_ok hs) hf.sorts (validOp_of (facts.valid op hop)) hc
  exact ⟨mem i _ hi, mem j _ hj, hne, hn⟩

end

/-! Non-vacuity: box `[0,1)³`, cutoff 3/4, skin 1/4; two owned particles and a dummy inside, a halo particle outside, all cells sorted
(threshold 0). -/

private def exFunctor (t : LCTraversal) (soa n3 : Bool) : CellFunctorCfg Particle :=
  ⟨fun p => p.own = .halo, soa, n3, t.bidirectional, 0, 3/4 + 1/4, ⟨1, 1, 1⟩, sortByProjection Particle.pos⟩

private theorem exFunctor_for (t : LCTraversal) (soa n3 : Bool) (h : t = .c01 → n3 = false) :
    FunctorFor t Particle.pos (3/4 + 1/4) (exFunctor t soa n3) := ⟨rfl, rfl, h, sortByProjection_sorted _⟩

theorem exSortedIn : SortedIn (CellBlock.rebuild id ⟨0, 0, 0⟩ ⟨1, 1, 1⟩ (3/4 + 1/4) 1) Particle.pos exCells := by
  have e : (3/4 + 1/4 : Rat) = 1 := by norm_num
  rw [e]
  change SortedIn exBlock _ _
  obtain ⟨h1, h2, h3, -⟩ := exBlock_dim
  refine ⟨?_, by decide +kernel, ?_⟩
  · unfold numCells CellBlock.dims exCells; rw [h1, h2, h3]; simp
  · intro k p hp
    have hf : (threeToOneD (exBlock.indexOfPosition id p.pos) exBlock.dims : Int) = _ := exBlock_flat p.pos
    rw [exCells_get] at hp
    split at hp
    · rename_i hk
      subst hk
      simp only [List.mem_cons, List.not_mem_nil, or_false] at hp
      rcases hp with rfl | rfl | rfl
      · have : ((threeToOneD (exBlock.indexOfPosition id exOwned.pos) exBlock.dims : Nat) : Int) = 13 := by
          rw [hf]; decide +kernel
        exact_mod_cast this
      · have : ((threeToOneD (exBlock.indexOfPosition id exDummy.pos) exBlock.dims : Nat) : Int) = 13 := by
          rw [hf]; decide +kernel
        exact_mod_cast this
      · have : ((threeToOneD (exBlock.indexOfPosition id exOwned2.pos) exBlock.dims : Nat) : Int) = 13 := by
          rw [hf]; decide +kernel
        exact_mod_cast this
    · split at hp
      · rename_i hk
        subst hk
        simp only [List.mem_singleton] at hp
        subst hp
        have : ((threeToOneD (exBlock.indexOfPosition id exHalo.pos) exBlock.dims : Nat) : Int) = 0 := by
          rw [hf]; decide +kernel
        exact_mod_cast this
      · cases hp

example (soa n3 : Bool) : timesReceived ((exFunctor .c18 soa n3).run
    (lcCells (CellBlock.rebuild id ⟨0, 0, 0⟩ ⟨1, 1, 1⟩ (3/4 + 1/4) 1) exCells)
    (LCTraversal.c18.ops (CellBlock.rebuild id ⟨0, 0, 0⟩ ⟨1, 1, 1⟩ (3/4 + 1/4) 1).dims
      (CellBlock.rebuild id ⟨0, 0, 0⟩ ⟨1, 1, 1⟩ (3/4 + 1/4) 1).cellLength (3/4 + 1/4))) exOwned exOwned2 = 1 := by
  have e : (3/4 + 1/4 : Rat) = 1 := by norm_num
  exact C51_linked_cells_exactly_once ⟨0, 0, 0⟩ ⟨1, 1, 1⟩ (3/4) (1/4) 1 (by norm_num) (by norm_num) (by rw [e]; exact exGood) .c18
    Particle.pos Particle.pos _ exCells exOwned exOwned2 trivial (exFunctor_for _ soa n3 (by simp)) exSortedIn
    (by intro p _; simp [distSq]) (by decide +kernel) (by decide +kernel) (by decide +kernel) rfl (by decide +kernel)
    (by decide +kernel)

/-- The other hypotheses can be met for every traversal. -/
example : (∀ t ∈ [LCTraversal.c08, .c18, .c01, .c04, .c04HCP, .slicedC02], t.Applicable ⟨3, 3, 3⟩ ⟨1, 1, 1⟩ 1) ∧
    (LCTraversal.slicedLock (sliceThickness true 3 2 1)).Applicable ⟨3, 3, 3⟩ ⟨1, 1, 1⟩ 1 := by
  refine ⟨?_, .inl ?_⟩
  · intro t ht
    simp only [List.mem_cons, List.not_mem_nil, or_false] at ht
    rcases ht with rfl | rfl | rfl | rfl | rfl | rfl <;> simp [LCTraversal.Applicable]
  · simp [overlapOf, V3.toNat, V3.get, longestAxis]

end Verif
