import Verif.Lemmas.VerletClusterRebuild
import Verif.Lemmas.VerletClusterIter
/-!
C63: rebuilding the towers of VerletClusterLists keeps every particle of the halo box.
-/
namespace Verif
open Spec

section
variable {P : Type} [DecidableEq P]

/-- The number of particles from which the grid is estimated, VerletClusterListsRebuilder.h:74-79. -/
def vclNumParticles (own : P → Ownership) (old : List (List P)) (toAdd : List P) : Nat :=
  (old.map fun t => (t.filter fun p => decide (own p ≠ .dummy)).length).sum + toAdd.length

/-- C63. Whatever the towers were before (`old`, of any earlier grid, at any positions) and whatever was added since: after the rebuild
every particle that is no dummy and lies in the box enlarged by the interaction length is in the tower of its position as often as it was
stored before, and in no other tower. No particle is multiplied, and deleted particles are gone. `towers` is any result that differs from
the sequential one by the order of the particles inside the towers. -/
theorem C63_rebuild_keeps (cbrt : Rat → Rat) (hcbrt : ∀ x, 0 < x → 0 < cbrt x) (bMin bMax : V3 Rat) (hx : bMin.x < bMax.x)
    (hy : bMin.y < bMax.y) (hz : bMin.z < bMax.z) (il : Rat) (hil : 0 < il) (clusterSize : Nat) (hc : 0 < clusterSize)
    (pos : P → V3 Rat) (own : P → Ownership) (old : List (List P)) (toAdd : List P) (hadd : ∀ p ∈ toAdd, own p ≠ .dummy)
    (towers : List (List P)) :
    let g := vclEstimate cbrt bMin bMax il clusterSize (vclNumParticles own old toAdd)
    towers.length = g.tx * g.ty →
    (∀ i, (towers.getD i []).Perm ((vclRebuild g pos own old toAdd).getD i [])) →
    (∀ p, own p ≠ .dummy → InBox (pos p) (bMin.addScalar (-il)) (bMax.addScalar il) →
      (towers.getD (g.to1D (g.towerAt (pos p))) []).count p = old.flatten.count p + toAdd.count p ∧
      towers.flatten.count p = old.flatten.count p + toAdd.count p) ∧
    (∀ p, towers.flatten.count p ≤ old.flatten.count p + toAdd.count p) ∧
    (∀ p ∈ towers.flatten, own p ≠ .dummy) := by
  intro g hlen hperm
  have hflat : ∀ (l : List (List P)) (N : Nat), l.length = N → l.flatten = ((List.range N).map fun i => l.getD i []).flatten := by
    intro l N hl
    rw [← List.flatMap_def, flatten_take_range, ← hl, List.take_length]
  have hcount : ∀ p, towers.flatten.count p = (vclRebuild g pos own old toAdd).flatten.count p := by
    intro p
    rw [hflat _ _ hlen, hflat _ _ (vclRebuild_length g pos own old toAdd), List.count_flatten, List.count_flatten, List.map_map, List.map_map]
    congr 1
    apply List.map_congr_left
    intro i _
    exact (hperm i).count_eq p
  refine ⟨?_, ?_, ?_⟩
  · intro p hp hin
    by_cases hn : vclNumParticles own old toAdd = 0
    · -- there are no particles
      have h1 : p ∉ toAdd := by
        intro h
        have := List.length_pos_of_mem h
        unfold vclNumParticles at hn; omega
      have h2 : p ∉ old.flatten := by
        intro h
        obtain ⟨t, ht, hpt⟩ := List.mem_flatten.1 h
        have h0 : (old.map fun t => (t.filter fun p => decide (own p ≠ .dummy)).length).sum = 0 := by
          unfold vclNumParticles at hn; omega
        have h3 := List.single_le_sum (l := old.map fun t => (t.filter fun p => decide (own p ≠ .dummy)).length) (fun _ _ => Nat.zero_le _)
          _ (List.mem_map.2 ⟨t, ht, rfl⟩)
        have h4 := List.length_pos_of_mem (List.mem_filter.2 ⟨hpt, by simpa using hp⟩ : p ∈ t.filter fun p => decide (own p ≠ .dummy))
        simp only [h0] at h3
        omega
      have h3 := vclRebuild_count_le g pos own old toAdd p
      rw [List.count_eq_zero.2 h1, List.count_eq_zero.2 h2] at h3 ⊢
      have h5 : towers.flatten.count p = 0 := by rw [hcount p]; split at h3 <;> omega
      refine ⟨?_, h5⟩
      rw [List.count_eq_zero] at h5 ⊢
      intro h
      apply h5
      rw [List.getD_eq_getElem?_getD] at h
      cases ht : towers[g.to1D (g.towerAt (pos p))]? with
      | none => rw [ht] at h; cases h
      | some t =>
        rw [ht] at h
        exact List.mem_flatten.2 ⟨t, List.mem_of_getElem? ht, h⟩
    · obtain ⟨ox, oy, hg⟩ := vclEstimate_ok cbrt hcbrt bMin bMax il clusterSize _ hx hy hz hil hc (Nat.pos_of_ne_zero hn)
      have hb : g.bMin = bMin ∧ g.bMax = bMax ∧ g.il = il := by
        show (vclEstimate _ _ _ _ _ _).bMin = _ ∧ (vclEstimate _ _ _ _ _ _).bMax = _ ∧ (vclEstimate _ _ _ _ _ _).il = _
        unfold vclEstimate
        rw [if_neg hn]
        exact ⟨rfl, rfl, rfl⟩
      have hin' : InBox (pos p) g.haloMin g.haloMax := by
        unfold VCLGrid.haloMin VCLGrid.haloMax
        rw [hb.1, hb.2.1, hb.2.2]
        simpa only [V3.addScalar, ← sub_eq_add_neg] using hin
      obtain ⟨l1, l2⟩ := hg.towerAt_lt (pos p)
      have hlt := VCLGrid.to1D_lt l1 l2
      have key : ∀ i, i < g.tx * g.ty → (towers.getD i []).count p =
          if g.to1D (g.towerAt (pos p)) = i then old.flatten.count p + toAdd.count p else 0 := by
        intro i hi
        rw [(hperm i).count_eq p]
        exact vclRebuild_count hg pos own old toAdd p hin' hp i hi
      have k0 := key _ hlt
      rw [if_pos rfl] at k0
      refine ⟨k0, ?_⟩
      rw [hflat _ _ hlen, count_range_single hlt _ p, k0]
      intro i hi hne
      rw [key i hi, if_neg (Ne.symm hne)]
  · intro p
    rw [hcount p]
    refine (vclRebuild_count_le g pos own old toAdd p).trans ?_
    split <;> omega
  · intro p hp hd
    have h1 := vclRebuild_count_le g pos own old toAdd p
    rw [if_pos hd, ← hcount p, List.count_eq_zero.2 (fun h => hadd p h hd)] at h1
    have := List.count_pos_iff.2 hp
    omega

end

/-- What C63 establishes is what iteration (C64) assumes: right after a rebuild that was given particles of the halo box only, owned ones
inside of the box, the towers are as `VCLStorage` says, with no movement. -/
theorem C63_storage (g : VCLGrid) (ox oy : Nat) (hg : g.Ok ox oy) (old : List (List Particle)) (toAdd : List Particle)
    (hin : ∀ p ∈ old.flatten ++ toAdd, InBox p.pos g.haloMin g.haloMax)
    (howned : ∀ p ∈ old.flatten ++ toAdd, p.own = .owned → InBox p.pos g.bMin g.bMax) (hadd : ∀ p ∈ toAdd, p.own ≠ .dummy)
    (hsmall : (old.flatten ++ toAdd).length < 2 ^ 64) :
    VCLStorage g 0 (vclRebuild g Particle.pos Particle.own old toAdd) [] := by
  have hmem : ∀ p ∈ (vclRebuild g Particle.pos Particle.own old toAdd).flatten, p ∈ old.flatten ++ toAdd ∧ p.own ≠ .dummy := by
    intro p hp
    have h1 := vclRebuild_count_le g Particle.pos Particle.own old toAdd p
    have h2 := List.count_pos_iff.2 hp
    by_cases hd : p.own = .dummy
    · rw [if_pos hd, List.count_eq_zero.2 (fun h => hadd p h hd)] at h1; omega
    · rw [if_neg hd] at h1
      refine ⟨?_, hd⟩
      rw [← List.count_pos_iff, List.count_append]
      omega
  have hget : ∀ i, ∀ p ∈ (vclRebuild g Particle.pos Particle.own old toAdd).getD i [], i < g.tx * g.ty ∧
      p ∈ (vclRebuild g Particle.pos Particle.own old toAdd).flatten := by
    intro i p hp
    rw [List.getD_eq_getElem?_getD] at hp
    cases ht : (vclRebuild g Particle.pos Particle.own old toAdd)[i]? with
    | none => rw [ht] at hp; cases hp
    | some t =>
      rw [ht] at hp
      refine ⟨?_, List.mem_flatten.2 ⟨t, List.mem_of_getElem? ht, hp⟩⟩
      have := (List.getElem?_eq_some_iff.1 ht).1
      rwa [vclRebuild_length] at this
  refine ⟨vclRebuild_length _ _ _ _ _, ?_, ?_, by simp, by simp⟩
  · intro i p hp
    obtain ⟨hi, hf⟩ := hget i p hp
    obtain ⟨h1, h2⟩ := hmem p hf
    refine ⟨p.pos, hin p h1, ?_, fun h => howned p h1 h, by simp, by simp, by simp⟩
    by_contra hne
    have := vclRebuild_count hg Particle.pos Particle.own old toAdd p (hin p h1) h2 i hi
    rw [if_neg hne] at this
    have := List.count_pos_iff.2 hp
    omega
  · intro l hl
    have hsub : l.length ≤ (vclRebuild g Particle.pos Particle.own old toAdd).flatten.length := by
      rw [List.length_flatten]
      exact List.single_le_sum (fun _ _ => Nat.zero_le _) _ (List.mem_map.2 ⟨l, hl, rfl⟩)
    have hle : (vclRebuild g Particle.pos Particle.own old toAdd).flatten.length ≤ (old.flatten ++ toAdd).length := by
      apply List.Subperm.length_le
      rw [List.subperm_iff_count]
      intro p
      have := vclRebuild_count_le g Particle.pos Particle.own old toAdd p
      rw [List.count_append]
      split at this <;> omega
    omega

/-! Non-vacuity: the box `[0,1)³` with interaction length 1. An owned particle and a deleted one are in the towers of an old grid with a
single tower, a halo particle was added. Both that are left are where they belong, once. -/

private def exOld : List (List Particle) := [[⟨1, ⟨1/2, 1/2, 1/2⟩, .owned⟩, ⟨2, ⟨1/4, 1/2, 1/2⟩, .dummy⟩]]
private def exNew : List Particle := [⟨3, ⟨-1/2, 1/2, 1/2⟩, .halo⟩]

example :
    let g := vclEstimate (fun _ => 1) ⟨0, 0, 0⟩ ⟨1, 1, 1⟩ 1 4 (vclNumParticles Particle.own exOld exNew)
    let towers := vclRebuild g Particle.pos Particle.own exOld exNew
    towers.flatten.count ⟨1, ⟨1/2, 1/2, 1/2⟩, .owned⟩ = 1 ∧ towers.flatten.count ⟨3, ⟨-1/2, 1/2, 1/2⟩, .halo⟩ = 1 := by
  intro g towers
  obtain ⟨h, -⟩ := C63_rebuild_keeps (fun _ => 1) (fun _ _ => one_pos) ⟨0, 0, 0⟩ ⟨1, 1, 1⟩ (by norm_num) (by norm_num) (by norm_num) 1 one_pos 4
    (by norm_num) Particle.pos Particle.own exOld exNew (by decide) towers (vclRebuild_length _ _ _ _ _) (fun _ => List.Perm.refl _)
  exact ⟨(h ⟨1, ⟨1/2, 1/2, 1/2⟩, .owned⟩ (by decide) (by norm_num [InBox, V3.addScalar])).2.trans (by decide +kernel),
    (h ⟨3, ⟨-1/2, 1/2, 1/2⟩, .halo⟩ (by decide) (by norm_num [InBox, V3.addScalar])).2.trans (by decide +kernel)⟩

/-- The grid of that example. -/
example :
    let g : VCLGrid := ⟨⟨0, 0, 0⟩, ⟨1, 1, 1⟩, 1, 1, 1, 3, 3⟩
    g.Ok 1 1 := by
  refine ⟨by decide, by decide, by norm_num, by norm_num, by norm_num, by norm_num, by norm_num, by norm_num, ?_, ?_⟩ <;>
    simp [VCLGrid.perX, VCLGrid.perY]

end Verif
