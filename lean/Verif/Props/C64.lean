import Verif.Props.C63
/-!
C64: iterating VerletClusterLists, in parallel and by regions. The property is that of C31 and C32 for this container. It fails if the numbers
of towers per interaction length differ in x and y (`C64_violated_owned`, `C64_violated_region`); if they agree it holds.
-/
namespace Verif
open Spec

private theorem stride_pos (behavior T : Nat) (hT : 0 < T) : 0 < iterStride behavior T := by
  unfold iterStride; split <;> omega

/-- `T` threads iterate concurrently (reading only). Every thread's loop ends, and the particles visited by all threads together are the
stored particles with a wanted ownership state, in the towers and in the vectors of particles still to be sorted in, each visited by
exactly one thread exactly once. Missing for the full property: grids with different numbers of towers per interaction length in x and y, and
behaviours that ask for dummies but not for everything. -/
theorem C64_threads_partition_partial (g : VCLGrid) (ox oy : Nat) (hg : g.Ok ox oy) (he : g.Even) (m : Rat) (behavior T : Nat) (hT : 0 < T)
    (hseq : ¬ Sequential behavior) (hb : NoDummyOrAll behavior) (cells vecs : List (List Particle)) (hs : VCLStorage g m cells vecs) :
    ∃ vs : Nat → List (Visit Particle),
      (∀ t, t < T → ∃ cells' vecs', LoopEnds (vclIterCfg g behavior T t) readOnly cells vecs (vs t) cells' vecs') ∧
      (((List.range T).flatMap fun t => (vs t).map Visit.before)).Perm
        ((cells.flatten ++ vecs.flatten).filter fun p => wanted behavior p.own) := by
  have hx : ∀ t, ∃ vs, (∃ cells' vecs', LoopEnds (vclIterCfg g behavior T t) readOnly cells vecs vs cells' vecs') ∧
      (vs.map fun v => (v.inVecs, v.idx, v.before)).Perm (allVisits (vclIterCfg g behavior T t) cells vecs) := by
    intro t
    have hgood : GoodStorage (vclIterCfg g behavior T t) cells vecs :=
      ⟨stride_pos behavior T hT, fun c hc => Bool.noConfusion hc, hs.small, hs.vsmall, hs.vnum⟩
    obtain ⟨vs, c', v', h1, h2, -⟩ := loop_ends_of_no_delete hgood readOnly (Or.inr (fun _ _ => by simp [readOnly]))
    exact ⟨vs, ⟨c', v', h1⟩, h2⟩
  choose vs hv1 hv2 using hx
  refine ⟨vs, fun t _ => hv1 t, ?_⟩
  have hns : behavior &&& ibForceSequential = 0 := by
    by_contra hc; exact hseq ((seq_bit behavior).1 hc)
  have hlast := hg.last_lt
  have hmain := allVisits_threads (fun t => vclIterCfg g behavior T t) T hT (fun p => wanted behavior p.own)
    (if behavior &&& ibHalo = 0 then g.firstOwnedTower else 0) (if behavior &&& ibHalo = 0 then g.lastOwnedTower else g.tx * g.ty - 1)
    (fun t => by funext p; exact fulfills_wanted behavior p.own)
    (fun t => by show iterStride behavior T = T; unfold iterStride; rw [if_neg (by simp [hns])])
    (fun t => rfl) (fun t => rfl)
    (fun t => by show iterThread behavior t = t; unfold iterThread; rw [if_neg (by simp [hns])])
    cells vecs
    (by rw [hs.len]; split <;> omega)
    (by
      intro k hk hkr p hp
      by_cases hh : behavior &&& ibHalo = 0
      · simp only [hh, if_true] at hkr
        have h1 : behavior.testBit 1 = false := by
          by_contra hc
          exact (and_bit_ne_zero behavior 1).2 (by simpa using hc) hh
        have h2 : behavior.testBit 2 = false := by
          by_contra hc
          have := (hb (by simpa using hc)).2
          rw [h1] at this; cases this
        obtain ⟨old, -, hk', ho, -⟩ := hs.placed k p hp
        cases hown : p.own with
        | halo => simpa [wanted] using h1
        | dummy => simpa [wanted] using h2
        | owned =>
          obtain ⟨r1, r2⟩ := hg.owned_tower he (ho hown)
          omega
      · simp only [hh, if_false] at hkr
        rw [hs.len] at hk
        omega)
  refine List.Perm.trans ?_ hmain
  rw [List.map_flatMap]
  apply List.Perm.flatMap_left
  intro t _
  have := (hv2 t).map (fun v : Bool × Nat × Particle => v.2.2)
  rw [List.map_map] at this
  exact this

/-- `T` threads iterate a region. If no particle moved further than the safety margin the iterator uses since the last rebuild, all loops end
and together visit the wanted particles that lie in the region and within an interaction length of the box, each exactly once. Missing
for the full property: grids with different numbers of towers per interaction length in x and y, particles further away from the box, and
displacements that are within half the skin but beyond the margin (as C32). -/
theorem C64_region_exact_partial (g : VCLGrid) (ox oy : Nat) (hg : g.Ok ox oy) (he : g.Even) (margin : Rat) (lo hi : V3 Rat) (behavior T : Nat)
    (hT : 0 < T) (hseq : ¬ Sequential behavior) (cells vecs : List (List Particle)) (hs : VCLStorage g margin cells vecs) :
    ∃ vs : Nat → List (Visit Particle),
      (∀ t, t < T → ∃ cells' vecs', LoopEnds (vclRegionCfg g margin lo hi behavior T t) readOnly cells vecs (vs t) cells' vecs') ∧
      (((List.range T).flatMap fun t => (vs t).map Visit.before)).Perm
        ((cells.flatten ++ vecs.flatten).filter fun p => wanted behavior p.own ∧ InBox p.pos lo hi ∧
          InBox p.pos (g.bMin.addScalar (-g.il)) (g.bMax.addScalar g.il)) := by
  have hx : ∀ t, ∃ vs, (∃ cells' vecs', LoopEnds (vclRegionCfg g margin lo hi behavior T t) readOnly cells vecs vs cells' vecs') ∧
      (vs.map fun v => (v.inVecs, v.idx, v.before)).Perm (allVisits (vclRegionCfg g margin lo hi behavior T t) cells vecs) := by
    intro t
    have hgood : GoodStorage (vclRegionCfg g margin lo hi behavior T t) cells vecs := by
      refine ⟨stride_pos behavior T hT, ?_, hs.small, hs.vsmall, hs.vnum⟩
      intro c hc p hp
      obtain ⟨old, hold, rfl, -, mx, my, mz⟩ := hs.placed c p hp
      simp only [vclRegionCfg, Bool.or_eq_false_iff, Bool.and_eq_false_iff] at hc ⊢
      left
      by_contra hin
      rw [Bool.not_eq_false] at hin
      have := (hg.region_tower he hold mx my mz hin).1
      rw [VCLGrid.to2D_to1D (hg.towerAt_lt old).1, this] at hc
      cases hc.2
    obtain ⟨vs, c', v', h1, h2, -⟩ := loop_ends_of_no_delete hgood readOnly (Or.inr (fun _ _ => by simp [readOnly]))
    exact ⟨vs, ⟨c', v', h1⟩, h2⟩
  choose vs hv1 hv2 using hx
  refine ⟨vs, fun t _ => hv1 t, ?_⟩
  have hns : behavior &&& ibForceSequential = 0 := by
    by_contra hc; exact hseq ((seq_bit behavior).1 hc)
  have hmain := allVisits_threads (fun t => vclRegionCfg g margin lo hi behavior T t) T hT
    (fun p => wanted behavior p.own ∧ InBox p.pos lo hi ∧ InBox p.pos (g.bMin.addScalar (-g.il)) (g.bMax.addScalar g.il))
    (g.to1D (g.towerAt ((V3.maximum lo (g.bMin.addScalar (-g.il))).addScalar (-margin))))
    (g.to1D (g.towerAt ((V3.minimum hi (g.bMax.addScalar g.il)).addScalar margin)))
    (fun t => by
      funext p
      simp only [vclRegionCfg, clamped_iff, fulfills_wanted]
      rw [Bool.eq_iff_iff]; simp [and_comm])
    (fun t => by show iterStride behavior T = T; unfold iterStride; rw [if_neg (by simp [hns])])
    (fun t => rfl) (fun t => rfl)
    (fun t => by show iterThread behavior t = t; unfold iterThread; rw [if_neg (by simp [hns])])
    cells vecs
    (by rw [hs.len]; exact VCLGrid.to1D_lt (hg.towerAt_lt _).1 (hg.towerAt_lt _).2)
    (by
      intro k hk hkr p hp
      obtain ⟨old, hold, rfl, -, mx, my, mz⟩ := hs.placed k p hp
      by_contra hin
      rw [Bool.not_eq_false, decide_eq_true_eq] at hin
      have hc := clamped_iff p.pos g.bMin g.bMax lo hi g.il
      rw [decide_eq_true hin.2] at hc
      obtain ⟨-, q1, q2⟩ := hg.region_tower he hold mx my mz hc
      omega)
  refine List.Perm.trans ?_ hmain
  rw [List.map_flatMap]
  apply List.Perm.flatMap_left
  intro t _
  have := (hv2 t).map (fun v : Bool × Nat × Particle => v.2.2)
  rw [List.map_map] at this
  exact this

/-! ### Different numbers of towers per interaction length -/

/-- The grid for a single particle, clusters of one particle, the box `[0,2)×[0,3)×[0,9/16)` and interaction length `6/5`: 2 × 2 towers in the
box, two on each side in x and one on each side in y. -/
def exUneven (cbrt : Rat → Rat) : VCLGrid := vclEstimate cbrt ⟨0, 0, 0⟩ ⟨2, 3, 9/16⟩ (6/5) 1 1

theorem exUneven_eq (cbrt : Rat → Rat) (h : cbrt (27/8) = 3/2) :
    exUneven cbrt = ⟨⟨0, 0, 0⟩, ⟨2, 3, 9/16⟩, 6/5, 1, 3/2, 6, 4⟩ ∧ (exUneven cbrt).Ok 2 2 ∧ ¬ (exUneven cbrt).Even := by
  have e1 : ⌈(4/3 : Rat)⌉ = 2 := Int.ceil_eq_iff.2 ⟨by norm_num, by norm_num⟩
  have e3 : ⌈(6/5 : Rat)⌉ = 2 := Int.ceil_eq_iff.2 ⟨by norm_num, by norm_num⟩
  have e4 : ⌈(4/5 : Rat)⌉ = 1 := Int.ceil_eq_iff.2 ⟨by norm_num, by norm_num⟩
  have e : exUneven cbrt = ⟨⟨0, 0, 0⟩, ⟨2, 3, 9/16⟩, 6/5, 1, 3/2, 6, 4⟩ := by
    unfold exUneven vclEstimate
    norm_num
    rw [h]
    norm_num [e1, e3, e4]
    decide
  refine ⟨e, ?_, ?_⟩
  · rw [e]
    refine ⟨by decide, by decide, by norm_num, by norm_num, by norm_num, by norm_num, by norm_num, by norm_num, ?_, ?_⟩ <;>
      norm_num [VCLGrid.perX, VCLGrid.perY, e3, e4]
    decide
  · rw [e]
    norm_num [VCLGrid.Even, VCLGrid.perX, VCLGrid.perY, e3, e4]
    decide


private theorem no_visits {cfg : IterCfg Particle} {cells : List (List Particle)} (hg : GoodStorage cfg cells [])
    (h : ∀ k, k ≤ cfg.endC → ∀ p ∈ cells.getD k [], cfg.ful p = false) : LoopEnds cfg readOnly cells [] [] cells [] := by
  obtain ⟨vs, c', v', h1, h2, -⟩ := loop_ends_of_no_delete hg readOnly (Or.inr (fun _ _ => by simp [readOnly]))
  have : allVisits cfg cells [] = [] := by
    unfold allVisits
    rw [tailT_eq hg.stride, tailT_eq hg.stride]
    rw [List.eq_nil_iff_forall_not_mem]
    intro v hv
    rw [List.mem_append] at hv
    rcases hv with hv | hv
    · obtain ⟨e, he, -⟩ := List.mem_map.1 hv
      obtain ⟨k, hk, hk'⟩ := List.mem_flatMap.1 he
      obtain ⟨p, hp, -⟩ := List.mem_map.1 hk'
      rw [List.mem_filter] at hp
      have hlt := ((mem_forUp hg.stride).1 hk).2.1
      rw [h k (by omega) p hp.1] at hp
      cases hp.2
    · obtain ⟨e, he, -⟩ := List.mem_map.1 hv
      obtain ⟨k, hk, hk'⟩ := List.mem_flatMap.1 he
      simp at hk'
  rw [this] at h2
  have hnil : vs = [] := by simpa using h2
  subst hnil
  exact loopEnds_nil h1

/-- An owned particle in the upper half of that box. -/
def exUpper : Particle := ⟨7, ⟨1/2, 2, 1/4⟩, .owned⟩

/-- A halo particle next to it. -/
def exUpperHalo : Particle := ⟨8, ⟨1/2, 31/10, 1/4⟩, .halo⟩

/-- The property fails if the numbers of towers per interaction length differ: with a single, owned particle in the box, sorted in by a rebuild and
not moved since, an iteration over owned particles visits nothing. -/
theorem C64_violated_owned (cbrt : Rat → Rat) (h : cbrt (27/8) = 3/2) :
    let g := vclEstimate cbrt ⟨0, 0, 0⟩ ⟨2, 3, 9/16⟩ (6/5) 1 1
    let towers := vclRebuild g Particle.pos Particle.own [] [exUpper]
    InBox exUpper.pos ⟨0, 0, 0⟩ ⟨2, 3, 9/16⟩ ∧ VCLStorage g 0 towers [] ∧ towers.flatten = [exUpper] ∧
    LoopEnds (vclIterCfg g ibOwned 1 0) readOnly towers [] [] towers [] := by
  intro g towers
  obtain ⟨e, hok, -⟩ := exUneven_eq cbrt h
  have hst : VCLStorage g 0 towers [] := C63_storage g 2 2 hok [] [exUpper]
    (by
      show ∀ p ∈ _, InBox _ (exUneven cbrt).haloMin (exUneven cbrt).haloMax
      rw [e]
      simp only [List.flatten_nil, List.nil_append, List.mem_singleton, forall_eq]
      norm_num [VCLGrid.haloMin, VCLGrid.haloMax, InBox, exUpper])
    (by
      show ∀ p ∈ _, _ → InBox _ (exUneven cbrt).bMin (exUneven cbrt).bMax
      rw [e]
      simp only [List.flatten_nil, List.nil_append, List.mem_singleton, forall_eq]
      norm_num [InBox, exUpper])
    (by simp [exUpper]) (by simp)
  have ht : towers = (List.range 24).map fun i => if i = 20 then [exUpper] else [] := by
    show vclRebuild (exUneven cbrt) _ _ _ _ = _
    rw [e]
    decide +kernel
  refine ⟨by norm_num [InBox, exUpper], hst, by rw [ht]; decide +kernel, ?_⟩
  apply no_visits ⟨stride_pos ibOwned 1 one_pos, fun c hc => Bool.noConfusion hc, hst.small, hst.vsmall, hst.vnum⟩
  intro k hk p hp
  have hlast : (vclIterCfg g ibOwned 1 0).endC = 16 := by
    show (vclIterCfg (exUneven cbrt) ibOwned 1 0).endC = 16
    rw [e]
    decide +kernel
  rw [hlast] at hk
  rw [ht, List.getD_eq_getElem?_getD, List.getElem?_map, List.getElem?_range (by omega)] at hp
  simp only [Option.map_some, Option.getD_some] at hp
  rw [if_neg (by omega)] at hp
  cases hp

/-- The same for regions: a halo particle that lies in the region, stored where a rebuild puts it and not moved since, is not visited. -/
theorem C64_violated_region (cbrt : Rat → Rat) (h : cbrt (27/8) = 3/2) :
    let g := vclEstimate cbrt ⟨0, 0, 0⟩ ⟨2, 3, 9/16⟩ (6/5) 1 1
    let towers := vclRebuild g Particle.pos Particle.own [] [exUpperHalo]
    InBox exUpperHalo.pos ⟨-1/2, 305/100, 0⟩ ⟨1, 32/10, 1/2⟩ ∧ VCLStorage g 0 towers [] ∧ towers.flatten = [exUpperHalo] ∧
    LoopEnds (vclRegionCfg g 0 ⟨-1/2, 305/100, 0⟩ ⟨1, 32/10, 1/2⟩ ibHalo 1 0) readOnly towers [] [] towers [] := by
  intro g towers
  obtain ⟨e, hok, -⟩ := exUneven_eq cbrt h
  have hst : VCLStorage g 0 towers [] := C63_storage g 2 2 hok [] [exUpperHalo]
    (by
      show ∀ p ∈ _, InBox _ (exUneven cbrt).haloMin (exUneven cbrt).haloMax
      rw [e]
      simp only [List.flatten_nil, List.nil_append, List.mem_singleton, forall_eq]
      norm_num [VCLGrid.haloMin, VCLGrid.haloMax, InBox, exUpperHalo])
    (by simp [exUpperHalo])
    (by simp [exUpperHalo]) (by simp)
  have ht : towers = (List.range 24).map fun i => if i = 20 then [exUpperHalo] else [] := by
    show vclRebuild (exUneven cbrt) _ _ _ _ = _
    rw [e]
    decide +kernel
  refine ⟨by norm_num [InBox, exUpperHalo], hst, by rw [ht]; decide +kernel, ?_⟩
  have hcfg : vclRegionCfg g 0 ⟨-1/2, 305/100, 0⟩ ⟨1, 32/10, 1/2⟩ ibHalo 1 0 = vclRegionCfg ⟨⟨0, 0, 0⟩, ⟨2, 3, 9/16⟩, 6/5, 1, 3/2, 6, 4⟩ 0 ⟨-1/2, 305/100, 0⟩ ⟨1, 32/10, 1/2⟩ ibHalo 1 0 :=
    congrArg (fun g => vclRegionCfg g 0 ⟨-1/2, 305/100, 0⟩ ⟨1, 32/10, 1/2⟩ ibHalo 1 0) e
  rw [hcfg, ht]
  set cfg := vclRegionCfg ⟨⟨0, 0, 0⟩, ⟨2, 3, 9/16⟩, 6/5, 1, 3/2, 6, 4⟩ 0 ⟨-1/2, 305/100, 0⟩ ⟨1, 32/10, 1/2⟩ ibHalo 1 0 with hc
  set cells := (List.range 24).map fun i => if i = 20 then [exUpperHalo] else [] with hcells
  have hs : cfg.startC = 19 := by decide +kernel
  have hend : cfg.endC = 21 := by decide +kernel
  have hth : cfg.thread = 0 := rfl
  have hstr : cfg.stride = 1 := rfl
  have r19 : cfg.rel 19 = false := by decide +kernel
  have r20 : cfg.rel 20 = false := by decide +kernel
  have r21 : cfg.rel 21 = false := by decide +kernel
  have ha : advanceIteratorIndices cfg cells 19 0 = none := by
    unfold advanceIteratorIndices
    rw [advanceLoop, if_pos (Or.inl r19), dif_neg (by rw [hend, hstr]; decide), hstr, advanceLoop, if_pos (Or.inl r20),
      dif_neg (by rw [hend, hstr]; decide), hstr, advanceLoop, if_pos (Or.inl r21), dif_pos (by rw [hend, hstr]; decide)]
  have hg : getParticleImpl cfg cells 0 0 = none := by
    unfold getParticleImpl
    simp only [and_self, if_true, hs, hth, hend]
    rw [if_neg (by decide)]
    have hget : (cells.getD 19 [])[0]? = none := by decide +kernel
    simp only [Nat.add_zero, hget, ha, Bool.false_eq_true, if_false]
  refine ⟨1, fun m hm => ?_⟩
  obtain ⟨k, rfl⟩ : ∃ k, m = k + 1 := ⟨m - 1, by omega⟩
  have hb : iterBegin cfg cells [] = ⟨cells, [], false, 0, 0, none⟩ := by
    unfold iterBegin fetch
    simp only [Bool.false_eq_true, if_false, hg, if_true]
  rw [hb]
  exact ⟨_, rfl, rfl, rfl⟩

/-! Non-vacuity: the box `[0,1)³` with interaction length 1, an owned particle that has left the box by `1/20` since the rebuild, one that
has not, and a halo particle. -/

private def exG : VCLGrid := ⟨⟨0, 0, 0⟩, ⟨1, 1, 1⟩, 1, 1, 1, 3, 3⟩

private theorem exG_ok : exG.Ok 1 1 ∧ exG.Even := by
  refine ⟨⟨by decide, by decide, by norm_num [exG], by norm_num [exG], by norm_num [exG], by norm_num [exG], by norm_num [exG],
    by norm_num [exG], ?_, ?_⟩, ?_⟩ <;> simp [VCLGrid.Even, VCLGrid.perX, VCLGrid.perY, exG]

private def exTowers : List (List Particle) :=
  [[], [], [], [⟨3, ⟨-1/2, 1/2, 1/2⟩, .halo⟩], [⟨1, ⟨21/20, 1/2, 1/2⟩, .owned⟩, ⟨2, ⟨1/2, 1/2, 1/2⟩, .owned⟩], [], [], [], []]

private theorem exTowers_storage : VCLStorage exG (1/10) exTowers [[⟨5, ⟨1/8, 1/8, 1/8⟩, .owned⟩]] := by
  refine ⟨rfl, ?_, by decide, by decide, by decide⟩
  intro i p hp
  have hi : i < 9 := by
    by_contra hc
    rw [List.getD_eq_getElem?_getD, List.getElem?_eq_none (by simpa [exTowers] using hc)] at hp
    cases hp
  interval_cases i <;> simp [exTowers] at hp
  · subst hp
    exact ⟨⟨-1/2, 1/2, 1/2⟩, by decide +kernel, by decide +kernel, by simp, by norm_num, by norm_num, by norm_num⟩
  · rcases hp with rfl | rfl
    · refine ⟨⟨19/20, 1/2, 1/2⟩, by decide +kernel, by decide +kernel, fun _ => by decide +kernel, ?_, by norm_num, by norm_num⟩
      rw [abs_le]; norm_num
    · exact ⟨⟨1/2, 1/2, 1/2⟩, by decide +kernel, by decide +kernel, fun _ => by decide +kernel, by norm_num, by norm_num, by norm_num⟩

example : ∃ vs : Nat → List (Visit Particle),
      (∀ t, t < 2 → ∃ cells' vecs', LoopEnds (vclIterCfg exG ibOwned 2 t) readOnly exTowers [[⟨5, ⟨1/8, 1/8, 1/8⟩, .owned⟩]] (vs t) cells' vecs') ∧
      (((List.range 2).flatMap fun t => (vs t).map Visit.before)).Perm
        [⟨1, ⟨21/20, 1/2, 1/2⟩, .owned⟩, ⟨2, ⟨1/2, 1/2, 1/2⟩, .owned⟩, ⟨5, ⟨1/8, 1/8, 1/8⟩, .owned⟩] :=
  C64_threads_partition_partial exG 1 1 exG_ok.1 exG_ok.2 (1/10) ibOwned 2 (by decide) (by unfold Sequential; decide)
    (by unfold NoDummyOrAll; decide) exTowers _ exTowers_storage

example : ∃ vs : Nat → List (Visit Particle),
      (∀ t, t < 2 → ∃ cells' vecs', LoopEnds (vclRegionCfg exG (1/10) ⟨1, 0, 0⟩ ⟨2, 1, 1⟩ ibOwned 2 t) readOnly exTowers
        [[⟨5, ⟨1/8, 1/8, 1/8⟩, .owned⟩]] (vs t) cells' vecs') ∧
      (((List.range 2).flatMap fun t => (vs t).map Visit.before)).Perm [⟨1, ⟨21/20, 1/2, 1/2⟩, .owned⟩] := by
  have h := C64_region_exact_partial exG 1 1 exG_ok.1 exG_ok.2 (1/10) ⟨1, 0, 0⟩ ⟨2, 1, 1⟩ ibOwned 2 (by decide) (by unfold Sequential; decide)
    exTowers _ exTowers_storage
  have e : (exTowers.flatten ++ [[(⟨5, ⟨1/8, 1/8, 1/8⟩, .owned⟩ : Particle)]].flatten).filter (fun p => wanted ibOwned p.own ∧
      InBox p.pos ⟨1, 0, 0⟩ ⟨2, 1, 1⟩ ∧ InBox p.pos (exG.bMin.addScalar (-exG.il)) (exG.bMax.addScalar exG.il)) =
      [⟨1, ⟨21/20, 1/2, 1/2⟩, .owned⟩] := by decide +kernel
  rwa [e] at h

end Verif
