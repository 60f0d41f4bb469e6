import Verif.Lemmas.LCIter
import Verif.Lemmas.ExampleStore
/-!
# C31 — Parallel iteration partitions the particles
-/
namespace Verif
open Spec

/-- `T` threads iterate concurrently (reading only). Every thread's loop ends, and the particles visited by all threads
together are the stored particles with a wanted ownership state, in the cells and in the additional vectors, each visited by
exactly one thread exactly once. Missing for the full property: behaviours that ask for dummies but not for everything
(`C30_violated_dummy`). -/
theorem C31_threads_partition_partial (b : CellBlock) (behavior T : Nat) (hT : 0 < T) (hseq : ¬ Sequential behavior)
    (hb : NoDummyOrAll behavior) (cells vecs : List (List Particle)) (hs : LCStorage b cells vecs) :
    ∃ vs : Nat → List (Visit Particle),
      (∀ t, t < T → ∃ cells' vecs', LoopEnds (lcIterCfg b behavior T t) readOnly cells vecs (vs t) cells' vecs') ∧
      (((List.range T).flatMap fun t => (vs t).map Visit.before)).Perm
        ((cells.flatten ++ vecs.flatten).filter fun p => wanted behavior p.own) := by
  have hx : ∀ t, ∃ vs, (∃ cells' vecs', LoopEnds (lcIterCfg b behavior T t) readOnly cells vecs vs cells' vecs') ∧
      (vs.map fun v => (v.inVecs, v.idx, v.before)).Perm (allVisits (lcIterCfg b behavior T t) cells vecs) := by
    intro t
    obtain ⟨vs, c', v', h1, h2, -⟩ := loop_ends_of_no_delete (lc_goodStorage hs hb T t hT) readOnly
      (Or.inr (fun _ _ => by simp [readOnly]))
    exact ⟨vs, ⟨c', v', h1⟩, h2⟩
  choose vs hv1 hv2 using hx
  refine ⟨vs, fun t _ => hv1 t, ?_⟩
  have hns : behavior &&& ibForceSequential = 0 := by
    by_contra hc; exact hseq ((seq_bit behavior).1 hc)
  have hmain := allVisits_threads (fun t => lcIterCfg b behavior T t) T hT (fun p => wanted behavior p.own)
    (if behavior &&& ibHalo = 0 then b.firstOwned else 0) (if behavior &&& ibHalo = 0 then b.lastOwned else b.numCells - 1)
    (fun t => by funext p; exact fulfills_wanted behavior p.own)
    (fun t => by show iterStride behavior T = T; unfold iterStride; rw [if_neg (by simp [hns])])
    (fun t => rfl) (fun t => rfl)
    (fun t => by show iterThread behavior t = t; unfold iterThread; rw [if_neg (by simp [hns])])
    cells vecs
    (by
      rw [hs.len]
      have := hs.pos
      have h2 : b.lastOwned ≤ b.numCells - 1 := by unfold CellBlock.lastOwned CellBlock.numCells; omega
      split <;> omega)
    (by
      intro k hk hkr p hp
      by_cases hh : behavior &&& ibHalo = 0
      · simp only [hh, if_true] at hkr
        refine not_wanted_of_mismatch hs hb ?_ hp
        unfold cellMatchesBehavior
        have : b.cellCanContainHalo k = true := by
          unfold CellBlock.cellCanContainHalo
          rw [if_pos hkr]
        rw [this, hh]; simp
      · simp only [hh, if_false] at hkr
        rw [hs.len] at hk
        omega)
  refine List.Perm.trans ?_ hmain
  rw [List.map_flatMap]
  apply List.Perm.flatMap_left
  intro t _
  have := (hv2 t).map (fun v : Bool × Nat × Particle => v.2.2)
  rw [List.map_map] at this
  exact this

example : ∃ vs : Nat → List (Visit Particle),
      (∀ t, t < 3 → ∃ cells' vecs', LoopEnds (lcIterCfg exBlock ibOwned 3 t) readOnly exCells exVecs (vs t) cells' vecs') ∧
      (((List.range 3).flatMap fun t => (vs t).map Visit.before)).Perm ([exOwned, exOwned2] ++ exVecs.flatten) :=
  C31_threads_partition_partial exBlock ibOwned 3 (by decide) (by unfold Sequential; decide)
    (by unfold NoDummyOrAll; decide) exCells exVecs (exStorage exVecs (by decide) (by decide))

end Verif
