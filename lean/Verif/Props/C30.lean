import Verif.Props.C31
import Verif.Lemmas.ExampleStore
/-!
# C30 — Iteration visits every matching particle exactly once
-/
namespace Verif
open Spec

/-- A sequential iteration (behaviour flag `forceSequential`, in any thread) ends and visits the stored particles with a
wanted ownership state, in the cells and in the additional vectors (insertion buffers), each exactly once. Missing for the
full property: behaviours that ask for dummies but not for everything (`C30_violated_dummy`). -/
theorem C30_sequential_partial (b : CellBlock) (behavior T t : Nat) (hseq : Sequential behavior)
    (hb : NoDummyOrAll behavior) (cells vecs : List (List Particle)) (hs : LCStorage b cells vecs) :
    ∃ vs cells' vecs', LoopEnds (lcIterCfg b behavior T t) readOnly cells vecs vs cells' vecs' ∧
      (vs.map Visit.before).Perm ((cells.flatten ++ vecs.flatten).filter fun p => wanted behavior p.own) := by
  have hns : behavior &&& ibForceSequential ≠ 0 := (seq_bit behavior).2 hseq
  have hcfg : lcIterCfg b behavior T t = lcIterCfg b behavior 1 0 := by
    unfold lcIterCfg iterThread iterStride
    simp only [hns, ne_eq, not_false_eq_true, if_true]
  rw [hcfg]
  obtain ⟨vs, c', v', h1, h2, -⟩ := loop_ends_of_no_delete (lc_goodStorage hs hb 1 0 Nat.one_pos) readOnly
      (Or.inr (fun _ _ => by simp [readOnly]))
  refine ⟨vs, c', v', h1, ?_⟩
  have hmain := allVisits_threads (fun t' => { lcIterCfg b behavior 1 0 with thread := t' }) 1 Nat.one_pos
    (fun p => wanted behavior p.own)
    (if behavior &&& ibHalo = 0 then b.firstOwned else 0) (if behavior &&& ibHalo = 0 then b.lastOwned else b.numCells - 1)
    (fun t => by funext p; exact fulfills_wanted behavior p.own)
    (fun t => by show iterStride behavior 1 = 1; unfold iterStride; split <;> rfl)
    (fun t => rfl) (fun t => rfl) (fun t => rfl)
    cells vecs
    (by
      rw [hs.len]
      have := hs.pos
      have h2 : b.lastOwned ≤ b.numCells - 1 := by unfold CellBlock.lastOwned CellBlock.numCells; omega
      split <;> omega)
    (by
      intro k hk hkr p hp
      by_cases hh : behavior &&& ibHalo = 0
      · simp only [hh, if_true] at hkr
        refine not_wanted_of_mismatch hs hb ?_ hp
        unfold cellMatchesBehavior
        have : b.cellCanContainHalo k = true := by
          unfold CellBlock.cellCanContainHalo
          rw [if_pos hkr]
        rw [this, hh]; simp
      · simp only [hh, if_false] at hkr
        rw [hs.len] at hk
        omega)
  refine List.Perm.trans ?_ hmain
  have e : (fun t' => ({ lcIterCfg b behavior 1 0 with thread := t' } : IterCfg Particle)) 0 = lcIterCfg b behavior 1 0 := by
    simp only [lcIterCfg, iterThread, hns, ne_eq, not_false_eq_true, if_true]
  rw [List.range_one, List.flatMap_singleton]
  rw [show ({ lcIterCfg b behavior 1 0 with thread := 0 } : IterCfg Particle) = lcIterCfg b behavior 1 0 from e]
  have := h2.map (fun v : Bool × Nat × Particle => v.2.2)
  rw [List.map_map] at this
  exact this

/-- The same for a run with one thread and no `forceSequential`. -/
theorem C30_one_thread_partial (b : CellBlock) (behavior : Nat) (hseq : ¬ Sequential behavior)
    (hb : NoDummyOrAll behavior) (cells vecs : List (List Particle)) (hs : LCStorage b cells vecs) :
    ∃ vs cells' vecs', LoopEnds (lcIterCfg b behavior 1 0) readOnly cells vecs vs cells' vecs' ∧
      (vs.map Visit.before).Perm ((cells.flatten ++ vecs.flatten).filter fun p => wanted behavior p.own) := by
  obtain ⟨vs, h1, h2⟩ := C31_threads_partition_partial b behavior 1 Nat.one_pos hseq hb cells vecs hs
  obtain ⟨c', v', h3⟩ := h1 0 Nat.one_pos
  exact ⟨vs 0, c', v', h3, by simpa using h2⟩

theorem advanceLoop_irrelevant {P : Type} (cfg : IterCfg P) (cells : List (List P)) (h : ∀ c, cfg.rel c = false) (c i : Nat) :
    advanceLoop cfg cells c i = none := by
  induction c, i using advanceLoop.induct cfg cells with
  | case1 c i h1 h2 => rw [advanceLoop, if_pos h1, dif_pos h2]
  | case2 c i h1 h2 ih => rw [advanceLoop, if_pos h1, dif_neg h2, ih]
  | case3 c i h1 h2 => exact absurd (Or.inl (h c)) h1
  | case4 c i h1 p h2 h3 => exact absurd (Or.inl (h c)) h1
  | case5 c i h1 p h2 h3 ih => exact absurd (Or.inl (h c)) h1

/-- The property fails for the behaviour `dummy`: with two owned particles and a dummy in the only inner cell (and one halo
particle), iterating over dummies visits nothing. -/
theorem C30_violated_dummy :
    LCStorage exBlock exCells [] ∧ LoopEnds (lcIterCfg exBlock ibDummy 1 0) readOnly exCells [] [] exCells [] ∧
    (exCells.flatten.filter fun p => wanted ibDummy p.own) = [exDummy] := by
  refine ⟨exStorage [] (by simp) (by simp), ⟨1, fun m hm => ?_⟩, ?_⟩
  · obtain ⟨h1, h2, h3, h4⟩ := exBlock_dim
    have hf : exBlock.firstOwned = 13 := by unfold CellBlock.firstOwned; rw [h1, h2, h4]
    have hg : getParticleImpl (lcIterCfg exBlock ibDummy 1 0) exCells 0 0 = none := by
      unfold getParticleImpl
      have hs : (lcIterCfg exBlock ibDummy 1 0).startC + (lcIterCfg exBlock ibDummy 1 0).thread = 13 := by
        simp [lcIterCfg, ibDummy, ibHalo, iterThread, hf, ibForceSequential]
      simp only [and_self, if_true, hs]
      rw [if_neg (by decide)]
      have hget : (exCells.getD 13 [])[0]? = some exOwned := by rw [exCells_get]; rfl
      rw [hget]
      have hful : (lcIterCfg exBlock ibDummy 1 0).ful exOwned = false := by decide
      simp only [hful, Bool.false_eq_true, if_false]
      have : advanceIteratorIndices (lcIterCfg exBlock ibDummy 1 0) exCells 13 0 = none :=
        advanceLoop_irrelevant _ _ (fun c => by simp [lcIterCfg, cellMatchesBehavior, ibDummy, ibOwned, ibHalo]) _ _
      rw [this]
    have hb : iterBegin (lcIterCfg exBlock ibDummy 1 0) exCells [] = ⟨exCells, [], false, 0, 0, none⟩ := by
      unfold iterBegin fetch
      simp only [Bool.false_eq_true, if_false, hg, if_true]
    obtain ⟨k, rfl⟩ : ∃ k, m = k + 1 := ⟨m - 1, by omega⟩
    refine ⟨⟨exCells, [], false, 0, 0, none⟩, ?_, rfl, rfl⟩
    rw [hb]
    rfl
  · rfl

example : ∃ vs cells' vecs', LoopEnds (lcIterCfg exBlock (ibOwnedOrHalo + ibForceSequential) 4 2) readOnly exCells exVecs vs cells' vecs' ∧
      (vs.map Visit.before).Perm ([exHalo, exOwned, exOwned2] ++ exVecs.flatten) := by
  have := C30_sequential_partial exBlock (ibOwnedOrHalo + ibForceSequential) 4 2 (by unfold Sequential; decide)
    (by unfold NoDummyOrAll; decide) exCells exVecs (exStorage exVecs (by decide) (by decide))
  have e : ((exCells.flatten ++ exVecs.flatten).filter fun p => wanted (ibOwnedOrHalo + ibForceSequential) p.own) =
    [exHalo, exOwned, exOwned2] ++ exVecs.flatten := rfl
  rwa [e] at this

end Verif
