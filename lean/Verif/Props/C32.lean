import Verif.Lemmas.LCRegion
import Verif.Lemmas.ExampleStore
/-!
# C32 — Region iteration is exact
-/
namespace Verif
open Spec

/-- `T` threads iterate a region. If no particle moved further than the safety margin the iterator uses (the code uses the skin
per time step times the number of steps since the cells were last rebuilt) since it was sorted into its cell, then all loops
end and together visit the wanted particles that lie in the region and within an interaction length of the box, each exactly
once. Missing for the full property: particles further away from the box (`C32_violated_far_halo`), displacements that are
within half the skin but beyond the margin (`C32_violated_margin`) and behaviours asking for dummies but not for everything. -/
theorem C32_region_exact_partial (bMin bMax : V3 Rat) (il csf : Rat) (hbox : GoodBox bMin bMax il csf) (margin : Rat)
    (lo hi : V3 Rat) (behavior T : Nat) (hT : 0 < T) (hseq : ¬ Sequential behavior) (hb : NoDummyOrAll behavior)
    (cells vecs : List (List Particle)) (hs : LCStorage (CellBlock.rebuild id bMin bMax il csf) cells vecs)
    (hm : MovedAtMost (CellBlock.rebuild id bMin bMax il csf) margin cells) :
    ∃ vs : Nat → List (Visit Particle),
      (∀ t, t < T → ∃ cells' vecs', LoopEnds (lcRegionCfg (CellBlock.rebuild id bMin bMax il csf) bMin bMax il margin lo hi
        behavior T t) readOnly cells vecs (vs t) cells' vecs') ∧
      (((List.range T).flatMap fun t => (vs t).map Visit.before)).Perm
        ((cells.flatten ++ vecs.flatten).filter fun p => wanted behavior p.own ∧ InBox p.pos lo hi ∧
          InBox p.pos (bMin.addScalar (-il)) (bMax.addScalar il)) := by
  set b := CellBlock.rebuild id bMin bMax il csf with hbdef
  have hx : ∀ t, ∃ vs, (∃ cells' vecs', LoopEnds (lcRegionCfg b bMin bMax il margin lo hi behavior T t) readOnly cells vecs vs
      cells' vecs') ∧ (vs.map fun v => (v.inVecs, v.idx, v.before)).Perm
        (allVisits (lcRegionCfg b bMin bMax il margin lo hi behavior T t) cells vecs) := by
    intro t
    obtain ⟨vs, c', v', h1, h2, -⟩ := loop_ends_of_no_delete (region_goodStorage hbox hs hb hm lo hi T t hT) readOnly
      (Or.inr (fun _ _ => by simp [readOnly]))
    exact ⟨vs, ⟨c', v', h1⟩, h2⟩
  choose vs hv1 hv2 using hx
  refine ⟨vs, fun t _ => hv1 t, ?_⟩
  have hns : behavior &&& ibForceSequential = 0 := by
    by_contra hc; exact hseq ((seq_bit behavior).1 hc)
  have hmain := allVisits_threads (fun t => lcRegionCfg b bMin bMax il margin lo hi behavior T t) T hT
    (fun p => wanted behavior p.own ∧ InBox p.pos lo hi ∧ InBox p.pos (bMin.addScalar (-il)) (bMax.addScalar il))
    (b.flatIndexOfPosition ((V3.maximum lo (bMin.addScalar (-il))).addScalar (-margin)))
    (b.flatIndexOfPosition ((V3.minimum hi (bMax.addScalar il)).addScalar margin))
    (fun t => by
      funext p
      simp only [lcRegionCfg, clamped_iff, fulfills_wanted]
      rw [Bool.eq_iff_iff]; simp [and_comm])
    (fun t => by show iterStride behavior T = T; unfold iterStride; rw [if_neg (by simp [hns])])
    (fun t => rfl) (fun t => rfl)
    (fun t => by show iterThread behavior t = t; unfold iterThread; rw [if_neg (by simp [hns])])
    cells vecs
    (by rw [hs.len]; exact flatIndex_lt hbox _)
    (by
      intro k hk hkr p hp
      obtain ⟨old, rfl, hx, hy, hz⟩ := hm k p hp
      by_contra hin
      rw [Bool.not_eq_false, decide_eq_true_eq] at hin
      have hc := clamped_iff p.pos bMin bMax lo hi il
      rw [decide_eq_true hin.2] at hc
      obtain ⟨-, q1, q2⟩ := region_cell hbox (csf := csf) hx hy hz hc
      rcases hkr with h | h
      · exact absurd q1 (not_le.2 h)
      · exact absurd q2 (not_le.2 h))
  refine List.Perm.trans ?_ hmain
  rw [List.map_flatMap]
  apply List.Perm.flatMap_left
  intro t _
  have := (hv2 t).map (fun v : Bool × Nat × Particle => v.2.2)
  rw [List.map_map] at this
  exact this

/-- In particular, if no wanted particle of the region is further from the box than the interaction length, the visited
particles are exactly the wanted ones inside the region. -/
theorem C32_region_exact_near_partial (bMin bMax : V3 Rat) (il csf : Rat) (hbox : GoodBox bMin bMax il csf) (margin : Rat)
    (lo hi : V3 Rat) (behavior T : Nat) (hT : 0 < T) (hseq : ¬ Sequential behavior) (hb : NoDummyOrAll behavior)
    (cells vecs : List (List Particle)) (hs : LCStorage (CellBlock.rebuild id bMin bMax il csf) cells vecs)
    (hm : MovedAtMost (CellBlock.rebuild id bMin bMax il csf) margin cells)
    (hnear : ∀ p ∈ cells.flatten ++ vecs.flatten, wanted behavior p.own → InBox p.pos lo hi →
      InBox p.pos (bMin.addScalar (-il)) (bMax.addScalar il)) :
    ∃ vs : Nat → List (Visit Particle),
      (∀ t, t < T → ∃ cells' vecs', LoopEnds (lcRegionCfg (CellBlock.rebuild id bMin bMax il csf) bMin bMax il margin lo hi
        behavior T t) readOnly cells vecs (vs t) cells' vecs') ∧
      (((List.range T).flatMap fun t => (vs t).map Visit.before)).Perm
        ((cells.flatten ++ vecs.flatten).filter fun p => wanted behavior p.own ∧ InBox p.pos lo hi) := by
  obtain ⟨vs, h1, h2⟩ := C32_region_exact_partial bMin bMax il csf hbox margin lo hi behavior T hT hseq hb cells vecs hs hm
  refine ⟨vs, h1, ?_⟩
  rwa [List.filter_congr (q := fun p => decide (wanted behavior p.own ∧ InBox p.pos lo hi))] at h2
  intro p hp
  rw [decide_eq_decide]
  constructor
  · rintro ⟨a, b, -⟩; exact ⟨a, b⟩
  · rintro ⟨a, b⟩; exact ⟨a, b, hnear p hp a b⟩

/-- A halo particle further from the box than the interaction length. -/
def farHalo : Particle := ⟨7, ⟨-5/2, 1/2, 1/2⟩, .halo⟩

/-- The property fails for particles further from the box than the interaction length: this halo particle, stored where
AutoPas puts it and not moved since, lies in the region, but iterating the region does not visit it. -/
theorem C32_violated_far_halo :
    LCStorage exBlock (oneCell 12 [farHalo]) [] ∧ MovedAtMost exBlock 0 (oneCell 12 [farHalo]) ∧
    LoopEnds (lcRegionCfg exBlock ⟨0, 0, 0⟩ ⟨1, 1, 1⟩ 1 0 ⟨-3, 0, 0⟩ ⟨1, 1, 1⟩ ibOwnedOrHalo 1 0) readOnly
      (oneCell 12 [farHalo]) [] [] (oneCell 12 [farHalo]) [] ∧
    ((oneCell 12 [farHalo]).flatten.filter fun p => wanted ibOwnedOrHalo p.own ∧ InBox p.pos ⟨-3, 0, 0⟩ ⟨1, 1, 1⟩) =
      [farHalo] := by
  have hs : LCStorage exBlock (oneCell 12 [farHalo]) [] :=
    oneCell_storage (by decide) _ (by simp) (by simp [farHalo]) (by simp [farHalo])
  have hm : MovedAtMost exBlock 0 (oneCell 12 [farHalo]) := by
    intro c p hp
    rw [oneCell_get (by decide)] at hp
    split at hp
    · simp only [List.mem_singleton] at hp; subst hp
      refine ⟨farHalo.pos, ?_, by simp, by simp, by simp⟩
      rename_i hc
      have := exBlock_flat farHalo.pos
      have e1 : ⌊farHalo.pos.x⌋ = -3 := Int.floor_eq_iff.2 ⟨by norm_num [farHalo], by norm_num [farHalo]⟩
      have e2 : ⌊farHalo.pos.y⌋ = 0 := Int.floor_eq_iff.2 ⟨by norm_num [farHalo], by norm_num [farHalo]⟩
      have e3 : ⌊farHalo.pos.z⌋ = 0 := Int.floor_eq_iff.2 ⟨by norm_num [farHalo], by norm_num [farHalo]⟩
      rw [e1, e2, e3] at this
      omega
    · cases hp
  refine ⟨hs, hm, ?_, by decide +kernel⟩
  obtain ⟨vs, h1, h2⟩ := C32_region_exact_partial ⟨0, 0, 0⟩ ⟨1, 1, 1⟩ 1 1 exGood 0 ⟨-3, 0, 0⟩ ⟨1, 1, 1⟩ ibOwnedOrHalo 1
    Nat.one_pos (by unfold Sequential; decide) (by unfold NoDummyOrAll; decide) _ [] hs hm
  obtain ⟨c', v', h3⟩ := h1 0 Nat.one_pos
  have e : ((oneCell 12 [farHalo]).flatten ++ ([] : List (List Particle)).flatten).filter (fun p => wanted ibOwnedOrHalo p.own ∧
      InBox p.pos ⟨-3, 0, 0⟩ ⟨1, 1, 1⟩ ∧ InBox p.pos (V3.addScalar ⟨0, 0, 0⟩ (-1)) (V3.addScalar ⟨1, 1, 1⟩ 1)) = [] := by decide +kernel
  rw [e] at h2
  have hnil : vs 0 = [] := by simpa using h2
  rw [hnil] at h3
  exact loopEnds_nil h3

/-- An owned particle that has left the box. -/
def movedOut : Particle := ⟨7, ⟨23/20, 1/2, 1/2⟩, .owned⟩

/-- The property fails if a particle moved by at most half the skin, but further than the skin per time step times the number
of steps since the last rebuild. Here the skin is `1/2` (`1/20` per time step, rebuild every 10 steps) and one step was made;
the particle moved by `1/4`. It lies in the region and was in cell 13, but iterating the region does not visit it. -/
theorem C32_violated_margin :
    LCStorage exBlock (oneCell 13 [movedOut]) [] ∧ MovedAtMost exBlock ((1/20 * 10) / 2) (oneCell 13 [movedOut]) ∧
    LoopEnds (lcRegionCfg exBlock ⟨0, 0, 0⟩ ⟨1, 1, 1⟩ 1 (1/20 * 1) ⟨11/10, 1/4, 1/4⟩ ⟨3/2, 3/4, 3/4⟩ ibOwned 1 0) readOnly
      (oneCell 13 [movedOut]) [] [] (oneCell 13 [movedOut]) [] ∧
    ((oneCell 13 [movedOut]).flatten.filter fun p => wanted ibOwned p.own ∧ InBox p.pos ⟨11/10, 1/4, 1/4⟩ ⟨3/2, 3/4, 3/4⟩) =
      [movedOut] := by
  refine ⟨oneCell_storage (by decide) _ (by simp) (by simp) (by simp [movedOut]), ?_, ⟨1, fun m hm => ?_⟩, by decide +kernel⟩
  · intro c p hp
    rw [oneCell_get (by decide)] at hp
    split at hp
    · simp only [List.mem_singleton] at hp; subst hp
      refine ⟨⟨9/10, 1/2, 1/2⟩, ?_, ?_, ?_, ?_⟩
      · rename_i hc
        have := exBlock_flat ⟨9/10, 1/2, 1/2⟩
        have e1 : ⌊(9/10 : Rat)⌋ = 0 := Int.floor_eq_iff.2 ⟨by norm_num [farHalo], by norm_num [farHalo]⟩
        have e2 : ⌊(1/2 : Rat)⌋ = 0 := Int.floor_eq_iff.2 ⟨by norm_num [farHalo], by norm_num [farHalo]⟩
        simp only [e1, e2] at this
        omega
      all_goals simp only [movedOut]; rw [abs_le]; norm_num
    · cases hp
  · set cfg := lcRegionCfg exBlock ⟨0, 0, 0⟩ ⟨1, 1, 1⟩ 1 (1/20 * 1) ⟨11/10, 1/4, 1/4⟩ ⟨3/2, 3/4, 3/4⟩ ibOwned 1 0 with hcfg
    have hs : cfg.startC = 14 := by
      have := exBlock_flat ((V3.maximum ⟨11/10, 1/4, 1/4⟩ (V3.addScalar ⟨0, 0, 0⟩ (-1))).addScalar (-(1/20 * 1)))
      have e : (V3.maximum ⟨11/10, 1/4, 1/4⟩ (V3.addScalar ⟨0, 0, 0⟩ (-1))).addScalar (-(1/20 * 1)) = ⟨21/20, 1/5, 1/5⟩ := by
        decide +kernel
      have e1 : ⌊(21/20 : Rat)⌋ = 1 := Int.floor_eq_iff.2 ⟨by norm_num [farHalo], by norm_num [farHalo]⟩
      have e2 : ⌊(1/5 : Rat)⌋ = 0 := Int.floor_eq_iff.2 ⟨by norm_num [farHalo], by norm_num [farHalo]⟩
      show exBlock.flatIndexOfPosition _ = 14
      rw [e] at this ⊢
      simp only [e1, e2] at this
      omega
    have he : cfg.endC = 14 := by
      have := exBlock_flat ((V3.minimum ⟨3/2, 3/4, 3/4⟩ (V3.addScalar ⟨1, 1, 1⟩ 1)).addScalar (1/20 * 1))
      have e : (V3.minimum ⟨3/2, 3/4, 3/4⟩ (V3.addScalar ⟨1, 1, 1⟩ 1)).addScalar (1/20 * 1) = ⟨31/20, 4/5, 4/5⟩ := by
        decide +kernel
      have e1 : ⌊(31/20 : Rat)⌋ = 1 := Int.floor_eq_iff.2 ⟨by norm_num [farHalo], by norm_num [farHalo]⟩
      have e2 : ⌊(4/5 : Rat)⌋ = 0 := Int.floor_eq_iff.2 ⟨by norm_num [farHalo], by norm_num [farHalo]⟩
      show exBlock.flatIndexOfPosition _ = 14
      rw [e] at this ⊢
      simp only [e1, e2] at this
      omega
    have hth : cfg.thread = 0 := rfl
    have hg : getParticleImpl cfg (oneCell 13 [movedOut]) 0 0 = none := by
      unfold getParticleImpl
      simp only [and_self, if_true, hs, hth, he]
      rw [if_neg (by decide)]
      have hget : ((oneCell 13 [movedOut]).getD 14 [])[0]? = none := by rw [oneCell_get (by decide)]; rfl
      have ha : advanceIteratorIndices cfg (oneCell 13 [movedOut]) 14 0 = none := by
        unfold advanceIteratorIndices
        rw [advanceLoop, if_pos (Or.inr (by rw [oneCell_get (by decide)]; simp)), dif_pos]
        left; rw [he]; decide
      simp only [Nat.add_zero, hget, ha, Bool.false_eq_true, if_false]
    have hb : iterBegin cfg (oneCell 13 [movedOut]) [] = ⟨oneCell 13 [movedOut], [], false, 0, 0, none⟩ := by
      unfold iterBegin fetch
      simp only [Bool.false_eq_true, if_false, hg, if_true]
    obtain ⟨k, rfl⟩ : ∃ k, m = k + 1 := ⟨m - 1, by omega⟩
    refine ⟨⟨oneCell 13 [movedOut], [], false, 0, 0, none⟩, ?_, rfl, rfl⟩
    rw [hb]
    rfl

/-- The hypotheses of the theorems above can be met: the example container after its particles moved by up to `1/10`. -/
example : ∃ vs : Nat → List (Visit Particle),
      (∀ t, t < 3 → ∃ cells' vecs', LoopEnds (lcRegionCfg exBlock ⟨0, 0, 0⟩ ⟨1, 1, 1⟩ 1 (1/10) ⟨0, 0, 0⟩ ⟨2, 2, 2⟩
        ibOwned 3 t) readOnly (oneCell 13 [⟨7, ⟨21/20, 1/2, 1/2⟩, .owned⟩, exOwned]) exVecs (vs t) cells' vecs') ∧
      (((List.range 3).flatMap fun t => (vs t).map Visit.before)).Perm
        [⟨7, ⟨21/20, 1/2, 1/2⟩, .owned⟩, exOwned, ⟨5, ⟨1/8, 1/8, 1/8⟩, .owned⟩] := by
  have hs := oneCell_storage (k := 13) (by decide) [⟨7, ⟨21/20, 1/2, 1/2⟩, .owned⟩, exOwned] (by simp) (by simp)
    (by simp [exOwned])
  have hm : MovedAtMost exBlock (1/10) (oneCell 13 [⟨7, ⟨21/20, 1/2, 1/2⟩, .owned⟩, exOwned]) := by
    intro c p hp
    rw [oneCell_get (by decide)] at hp
    split at hp
    · rename_i hc
      have e1 : ⌊(19/20 : Rat)⌋ = 0 := Int.floor_eq_iff.2 ⟨by norm_num [farHalo], by norm_num [farHalo]⟩
      have e2 : ⌊(1/2 : Rat)⌋ = 0 := Int.floor_eq_iff.2 ⟨by norm_num [farHalo], by norm_num [farHalo]⟩
      simp only [List.mem_cons, List.not_mem_nil, or_false] at hp
      rcases hp with rfl | rfl
      · refine ⟨⟨19/20, 1/2, 1/2⟩, ?_, ?_, ?_, ?_⟩
        · have := exBlock_flat ⟨19/20, 1/2, 1/2⟩
          simp only [e1, e2] at this
          omega
        all_goals simp only; rw [abs_le]; norm_num
      · refine ⟨⟨1/2, 1/2, 1/2⟩, ?_, ?_, ?_, ?_⟩
        · have := exBlock_flat ⟨1/2, 1/2, 1/2⟩
          simp only [e2] at this
          omega
        all_goals simp only [exOwned]; rw [abs_le]; norm_num
    · cases hp
  have h := C32_region_exact_partial ⟨0, 0, 0⟩ ⟨1, 1, 1⟩ 1 1 exGood (1/10) ⟨0, 0, 0⟩ ⟨2, 2, 2⟩ ibOwned 3 (by decide)
    (by unfold Sequential; decide) (by unfold NoDummyOrAll; decide) _ exVecs
    { hs with vsmall := by decide, vnum := by decide } hm
  have e : ((oneCell 13 [⟨7, ⟨21/20, 1/2, 1/2⟩, .owned⟩, exOwned]).flatten ++ exVecs.flatten).filter (fun p => wanted ibOwned p.own ∧
      InBox p.pos ⟨0, 0, 0⟩ ⟨2, 2, 2⟩ ∧ InBox p.pos (V3.addScalar ⟨0, 0, 0⟩ (-1)) (V3.addScalar ⟨1, 1, 1⟩ 1)) =
      [⟨7, ⟨21/20, 1/2, 1/2⟩, .owned⟩, exOwned, ⟨5, ⟨1/8, 1/8, 1/8⟩, .owned⟩] := by decide +kernel
  rwa [e] at h

end Verif
