import Verif.Lemmas.LCC01RingComplete
/-! Linked-cells traversals on cells all of which may hold owned particles (no check for halo cells). -/
namespace Verif
open Spec

section
variable {P : Type} [DecidableEq P]

theorem cellsOk_open {b : CellBlock} {home : P → V3 Rat} {cells : List (List P)} (hok : CellsOk (lcCells b cells)
    (fun p => (threeToOneD (b.indexOfPosition id (home p)) b.dims : Int))) : CellsOk (openCells (lcCells b cells))
    (fun p => (threeToOneD (b.indexOfPosition id (home p)) b.dims : Int)) :=
  ⟨fun i => by rw [(cellAt_open i).1]; exact hok.nodup i, fun i p hi hp => hok.mem i p hi (by rwa [(cellAt_open i).1] at hp)⟩

theorem open_exactly_once {bMin bMax : V3 Rat} {cutoff skin csf : Rat} (hcut : 0 ≤ cutoff) (hskin : 0 ≤ skin)
    (hbox : GoodBox bMin bMax (cutoff + skin) csf) (t : LCTraversal) {pos home : P → V3 Rat} {f : CellFunctorCfg P}
    {cells : List (List P)} {a b : P} :
    let blk := CellBlock.rebuild id bMin bMax (cutoff + skin) csf
    t.Applicable blk.dims blk.cellLength (cutoff + skin) →
    FunctorFor t pos (cutoff + skin) f →
    SortedIn blk home cells →
    (∀ p ∈ cells.flatten, 4 * distSq (pos p) (home p) ≤ skin * skin) →
    a ∈ cells.flatten → b ∈ cells.flatten → a ≠ b →
    f.isHalo a = false → InBox (home a) bMin bMax →
    distSq (pos a) (pos b) ≤ cutoff * cutoff →
    timesReceived (f.run (openCells (lcCells blk cells)) (t.ops blk.dims blk.cellLength (cutoff + skin))) a b = 1 := by
  intro blk ht hf hs hm ha hb hab hh hin hd
  have facts := lcTraversal_facts hbox t ht
  have hm' : ∀ p ∈ cells.flatten, 4 * distSq (pos p) (home p) ≤ (cutoff + skin) * (cutoff + skin) := fun p hp => by
    have := hm p hp; nlinarith
  have hn : Near pos f.cutoff a b := by unfold Near; rw [hf.cutoff]; nlinarith
  have hbo : (f.newton3 || f.bidirectional) = t.bidirectional := hf.both
  unfold CellFunctorCfg.run
  rw [timesReceived_flatMap_indicator (q := hits t.bidirectional
    (threeToOneD (blk.indexOfPosition id (home a)) blk.dims) (threeToOneD (blk.indexOfPosition id (home b)) blk.dims))]
  · exact facts.once _ _ (home_near hcut hskin hd (hm a ha) (hm b hb)) hin
  · intro op hop
    obtain ⟨ma, la⟩ := mem_own_cell hs ha
    obtain ⟨mb, lb⟩ := mem_own_cell hs hb
    rw [← hbo]
    refine op_received (cellsOk_open (cells_ok hs)) hf.sorts hab (by rw [(cellAt_open _).1]; exact ma) (by rw [(cellAt_open _).1]; exact mb)
      ?_ hh hn (validOp_of (facts.valid op hop)) ?_
    · exact (cellAt_open _).2 (List.ne_nil_of_mem ma)
    · rintro i j dir rfl
      rw [hf.cutoff, (cellAt_open _).1, (cellAt_open _).1]
      exact lc_notBehind hbox facts hs hm' hop

theorem open_at_most_once {bMin bMax : V3 Rat} {il csf : Rat} (hbox : GoodBox bMin bMax il csf) (t : LCTraversal) {pos home : P → V3 Rat}
    {f : CellFunctorCfg P} {cells : List (List P)} (a b : P) :
    let blk := CellBlock.rebuild id bMin bMax il csf
    t.Applicable blk.dims blk.cellLength il → FunctorFor t pos il f → SortedIn blk home cells →
    timesReceived (f.run (openCells (lcCells blk cells)) (t.ops blk.dims blk.cellLength il)) a b ≤ 1 ∧
    (timesReceived (f.run (openCells (lcCells blk cells)) (t.ops blk.dims blk.cellLength il)) a b ≠ 0 →
      a ∈ cells.flatten ∧ b ∈ cells.flatten ∧ a ≠ b) := by
  intro blk ht hf hs
  have facts := lcTraversal_facts hbox t ht
  have hbo : (f.newton3 || f.bidirectional) = t.bidirectional := hf.both
  have hopen := cellsOk_open (cells_ok hs)
  have hmem : timesReceived (f.run (openCells (lcCells blk cells)) (t.ops blk.dims blk.cellLength il)) a b ≠ 0 →
      a ∈ cells.flatten ∧ b ∈ cells.flatten ∧ a ≠ b := by
    intro hx
    obtain ⟨c, hc, hm⟩ := mem_contributions_calls hx
    obtain ⟨op, hop, hc⟩ := List.mem_flatMap.1 hc
    have mem : ∀ k : Int, ∀ p ∈ (cellAt (openCells (lcCells blk cells)) k).particles, p ∈ cells.flatten := by
      intro k p hp
      rw [(cellAt_open k).1, (cellAt_lcCells k).1] at hp
      exact mem_flatten_getD'.2 ⟨_, hp⟩
    obtain ⟨i, j, hi, hj, hne, hn⟩ := op_calls hopen hf.sorts (validOp_of (facts.valid op hop)) hc
    rcases hm with ⟨rfl, rfl⟩ | ⟨-, rfl, rfl⟩
    · exact ⟨mem i _ hi, mem j _ hj, hne⟩
    · exact ⟨mem j _ hj, mem i _ hi, hne.symm⟩
  refine ⟨?_, hmem⟩
  by_cases hab : a = b
  · by_contra hx
    exact (hmem (by omega)).2.2 hab
  · refine le_trans (timesReceived_flatMap_le (q := hits t.bidirectional
      (threeToOneD (blk.indexOfPosition id (home a)) blk.dims) (threeToOneD (blk.indexOfPosition id (home b)) blk.dims)) ?_)
      (facts.most _ _ (hbox.inGrid _) (hbox.inGrid _))
    intro op hop
    rw [← hbo]
    exact op_received_le hopen hf.sorts hab (validOp_of (facts.valid op hop))

end

end Verif
