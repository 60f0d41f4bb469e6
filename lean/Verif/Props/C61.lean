import Verif.Props.C60
/-!
# C61 — the number of neighbour pairs

VarVerletLists has a function `getNumberOfNeighborPairs`, documented to return the number of neighbour pairs in the lists
(/repo/src/autopas/containers/verletListsCellBased/varVerletLists/VarVerletLists.h:57-61). It counts the entries of the hash maps from particle to list
of neighbours instead, so it returns less as soon as one particle has two neighbours in a list. Proved are this negation, that the returned number is
never too large, and when it is right.
-/
namespace Verif
open Spec

section
variable {P : Type} [DecidableEq P]

/-- The pairs in the lists. -/
def pairsIn (lists : List (List (VVLMap P))) : List (P × P) := lists.flatten.flatten.flatMap fun e => e.2.map fun q => (e.1, q)

theorem vvlFold_nonempty (pos : P → V3 Rat) (il : Rat) (calls : List (PairCall P)) {m : VVLMap P} (h : ∀ e ∈ m, e.2 ≠ []) :
    ∀ e ∈ calls.foldl (vvlGenerate pos il) m, e.2 ≠ [] := by
  induction calls generalizing m with
  | nil => exact h
  | cons c calls ih =>
    rw [List.foldl_cons]
    apply ih
    unfold vvlGenerate
    split
    · unfold vvlAdd
      split
      · intro e he
        obtain ⟨e', he', rfl⟩ := List.mem_map.1 he
        split
        · simp
        · exact h e' he'
      · intro e he
        rcases List.mem_append.1 he with he | he
        · exact h e he
        · rw [List.mem_singleton] at he
          subst he
          simp
    · exact h

theorem sum_le_count (l : VVLMap P) (h : ∀ e ∈ l, e.2 ≠ []) : l.length ≤ (l.flatMap fun e => e.2.map fun q => (e.1, q)).length ∧
    (l.length = (l.flatMap fun e => e.2.map fun q => (e.1, q)).length ↔ ∀ e ∈ l, e.2.length = 1) := by
  induction l with
  | nil => simp
  | cons e l ih =>
    obtain ⟨h1, h2⟩ := ih fun e he => h e (List.mem_cons_of_mem _ he)
    have h0 : 0 < e.2.length := List.length_pos_iff.2 (h e List.mem_cons_self)
    rw [List.flatMap_cons, List.length_append, List.length_map, List.length_cons]
    refine ⟨by omega, ?_⟩
    rw [List.forall_mem_cons, ← h2]
    omega

theorem vvlNumberOfPairs_eq (lists : List (List (VVLMap P))) : vvlNumberOfPairs lists = lists.flatten.flatten.length := by
  unfold vvlNumberOfPairs
  rw [List.length_flatten, List.map_flatten, List.sum_flatten, List.map_map]
  rfl

/-- C61, the part that holds: the returned number is at most the number of pairs, and equal to it exactly if no list of a particle has two
neighbours. -/
theorem C61_number_of_pairs_partial (maxThreads : Nat) (pos : P → V3 Rat) (blk : CellBlock) (il : Rat) (f : CellFunctorCfg P)
    (cells : List (List P)) (sched : List (List (List (V3 Nat)))) (lists : List (List (VVLMap P)))
    (h : vvlBuild maxThreads pos blk il f cells sched = some lists) :
    vvlNumberOfPairs lists ≤ (pairsIn lists).length ∧
    (vvlNumberOfPairs lists = (pairsIn lists).length ↔ ∀ colour ∈ lists, ∀ thread ∈ colour, ∀ e ∈ thread, e.2.length = 1) := by
  obtain ⟨-, rfl⟩ := vvlBuild_some h
  rw [vvlNumberOfPairs_eq]
  obtain ⟨h1, h2⟩ := sum_le_count (((List.range 8).map fun colour => (List.range maxThreads).map fun thread =>
      vvlThread pos blk il f cells ((sched.getD colour []).getD thread [])).flatten.flatten) (by
    intro e he
    obtain ⟨m, hm, he⟩ := List.mem_flatten.1 he
    obtain ⟨c, hc, hm⟩ := List.mem_flatten.1 hm
    obtain ⟨k, -, rfl⟩ := List.mem_map.1 hc
    obtain ⟨t, -, rfl⟩ := List.mem_map.1 hm
    exact vvlFold_nonempty pos il _ (by simp) e he)
  refine ⟨h1, h2.trans ⟨fun h c hc t ht e he => h e (List.mem_flatten.2 ⟨t, List.mem_flatten.2 ⟨c, hc, ht⟩, he⟩), fun h e he => ?_⟩⟩
  obtain ⟨m, hm, he⟩ := List.mem_flatten.1 he
  obtain ⟨c, hc, hm⟩ := List.mem_flatten.1 hm
  exact h c hc m hm e he

end

private def exF61 : CellFunctorCfg Particle :=
  ⟨fun p => p.own = .halo, true, true, true, 0, 1, ⟨1, 1, 1⟩, sortByProjection Particle.pos⟩

private def exCells61 : List (List Particle) :=
  (List.range 27).map fun i => if i = 13 then [⟨0, ⟨1/2, 1/2, 1/2⟩, .owned⟩, ⟨1, ⟨1/4, 1/2, 1/2⟩, .owned⟩, ⟨2, ⟨3/4, 1/2, 1/2⟩, .owned⟩] else []

/-- C61 does not hold: three particles in one cell have three neighbour pairs; two are reported. -/
theorem C61_number_of_pairs_wrong : ∃ lists, vvlBuild 1 Particle.pos (CellBlock.rebuild id ⟨0, 0, 0⟩ ⟨1, 1, 1⟩ 1 1) 1 exF61 exCells61
      ((c08Bases (CellBlock.rebuild id ⟨0, 0, 0⟩ ⟨1, 1, 1⟩ 1 1).dims ⟨1, 1, 1⟩).map fun c => [c]) = some lists ∧
    (pairsIn lists).length = 3 ∧ vvlNumberOfPairs lists = 2 := by
  refine ⟨_, rfl, ?_, ?_⟩ <;> decide +kernel

end Verif
