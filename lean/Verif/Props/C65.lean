import Verif.Lemmas.VerletClusterVisits
import Verif.Lemmas.WithRemainder
import Verif.Props.C63
/-!
# C65 — the interactions of VerletClusterLists

The container sorts the particles into towers (a grid in x and y), sorts each tower by z and cuts it into clusters. The lists hold pairs of
clusters. While the lists are kept, every traversal has to compute every interaction within the cutoff exactly once, however the particles
were distributed. This holds whenever the numbers of towers per interaction length in x and y agree; otherwise interactions can be lost.
-/
namespace Verif
open Spec

section
variable {P : Type} [DecidableEq P]

/-- The state after a rebuild from the towers `old` and the new particles `toAdd`: the particles of every tower in any order in which they
may have been sorted in, then sorted by z. -/
structure VCLRebuiltFrom (cbrt : Rat → Rat) (bMin bMax : V3 Rat) (il : Rat) (old : List (List P)) (toAdd : List P) (s : VCL P) : Prop where
  grid : s.g = vclEstimate cbrt bMin bMax il s.clusterSize (vclNumParticles s.own old toAdd)
  len : s.towers.length = s.g.tx * s.g.ty
  perm : ∀ i, (s.towers.getD i []).Perm ((vclRebuild s.g s.pos s.own old toAdd).getD i [])
  sorted : ∀ t ∈ s.towers, t.Pairwise fun p q => (s.pos p).z ≤ (s.pos q).z

/-- A proper box and interaction length, and particles as they are at a rebuild: different objects, none outside of the halo, owned ones
inside of the box and halo ones outside. -/
structure VCLInput (cbrt : Rat → Rat) (bMin bMax : V3 Rat) (il : Rat) (clusterSize : Nat) (pos : P → V3 Rat) (own : P → Ownership)
    (old : List (List P)) (toAdd : List P) : Prop where
  cbrtPos : ∀ x, 0 < x → 0 < cbrt x
  x : bMin.x < bMax.x
  y : bMin.y < bMax.y
  z : bMin.z < bMax.z
  ilPos : 0 < il
  size : 0 < clusterSize
  nodup : (old.flatten ++ toAdd).Nodup
  new : ∀ p ∈ toAdd, own p ≠ .dummy
  halo : ∀ p ∈ old.flatten ++ toAdd, own p ≠ .dummy → InBox (pos p) (bMin.addScalar (-il)) (bMax.addScalar il)
  owned : ∀ p ∈ old.flatten ++ toAdd, own p ≠ .dummy → (own p = .owned ↔ InBox (pos p) bMin bMax)

variable {cbrt : Rat → Rat} {bMin bMax : V3 Rat} {il : Rat} {old : List (List P)} {toAdd : List P} {s : VCL P}

theorem VCLRebuiltFrom.rebuilt (h : VCLRebuiltFrom cbrt bMin bMax il old toAdd s)
    (hi : VCLInput cbrt bMin bMax il s.clusterSize s.pos s.own old toAdd) (hn : vclNumParticles s.own old toAdd ≠ 0) :
    s.g.bMin = bMin ∧ s.g.bMax = bMax ∧ s.g.il = il ∧ ∃ ox oy, VCLRebuilt s ox oy := by
  have hb : s.g.bMin = bMin ∧ s.g.bMax = bMax ∧ s.g.il = il := by
    rw [h.grid]
    unfold vclEstimate
    rw [if_neg hn]
    exact ⟨rfl, rfl, rfl⟩
  refine ⟨hb.1, hb.2.1, hb.2.2, ?_⟩
  obtain ⟨ox, oy, hok⟩ := vclEstimate_ok cbrt hi.cbrtPos bMin bMax il s.clusterSize _ hi.x hi.y hi.z hi.ilPos hi.size (Nat.pos_of_ne_zero hn)
  rw [← h.grid] at hok
  have hkeep := C63_rebuild_keeps cbrt hi.cbrtPos bMin bMax hi.x hi.y hi.z il hi.ilPos s.clusterSize hi.size s.pos s.own old toAdd hi.new s.towers
  rw [← h.grid] at hkeep
  obtain ⟨h1, h2, h3⟩ := hkeep h.len h.perm
  have hnd : ∀ p, old.flatten.count p + toAdd.count p ≤ 1 := by
    intro p
    rw [← List.count_append]
    exact List.nodup_iff_count_le_one.1 hi.nodup p
  have hmem : ∀ p ∈ s.towers.flatten, p ∈ old.flatten ++ toAdd := by
    intro p hp
    have := h2 p
    have hc := List.count_pos_iff.2 hp
    rw [← List.count_pos_iff, List.count_append]
    omega
  have hhalo : ∀ p ∈ s.towers.flatten, InBox (s.pos p) s.g.haloMin s.g.haloMax := by
    intro p hp
    have := hi.halo p (hmem p hp) (h3 p hp)
    unfold VCLGrid.haloMin VCLGrid.haloMax
    rw [hb.1, hb.2.1, hb.2.2]
    simpa only [V3.addScalar, ← sub_eq_add_neg] using this
  refine ⟨ox, oy, hok, hi.size, h.len, ?_, ?_, ?_, ?_⟩
  · rw [List.nodup_iff_count_le_one]
    exact fun p => (h2 p).trans (hnd p)
  · intro i p hp
    have hpf : p ∈ s.towers.flatten := by
      rw [List.getD_eq_getElem?_getD] at hp
      cases ht : s.towers[i]? with
      | none => rw [ht] at hp; cases hp
      | some t => rw [ht] at hp; exact List.mem_flatten.2 ⟨t, List.mem_of_getElem? ht, hp⟩
    have hil : i < s.g.tx * s.g.ty := by
      rw [← h.len]
      by_contra hc
      rw [List.getD_eq_getElem?_getD, List.getElem?_eq_none (by omega)] at hp
      cases hp
    refine ⟨hhalo p hpf, ?_⟩
    by_contra hne
    have hc := vclRebuild_count hok s.pos s.own old toAdd p (hhalo p hpf) (h3 p hpf) i hil
    rw [if_neg hne, ← (h.perm i).count_eq p] at hc
    exact List.count_eq_zero.1 hc hp
  · intro i
    rw [List.getD_eq_getElem?_getD]
    cases ht : s.towers[i]? with
    | none => exact List.Pairwise.nil
    | some t => exact h.sorted t (List.mem_of_getElem? ht)
  · intro p hp
    refine ⟨h3 p hp, ?_⟩
    rw [hb.1, hb.2.1]
    exact hi.owned p (hmem p hp) (h3 p hp)

theorem processCluster_nil (h : s.towers.flatten = []) (k : ClusterId) : s.processCluster k = [] := by
  have ht : ∀ t, s.tower t = [] := by
    intro t
    unfold VCL.tower
    rw [List.getD_eq_getElem?_getD]
    cases e : s.towers[s.g.to1D t]? with
    | none => rfl
    | some l =>
      rw [List.flatten_eq_nil_iff] at h
      exact h l (List.mem_of_getElem? e)
  rw [VCL.processCluster_eq]
  simp [ht, clusterOf, soaSingle, pairLoop, soaPair, crossLoop]

/-- Nobody is there, or the state is as the lemmas about pairs need it. -/
theorem VCLRebuiltFrom.cases (h : VCLRebuiltFrom cbrt bMin bMax il old toAdd s)
    (hi : VCLInput cbrt bMin bMax il s.clusterSize s.pos s.own old toAdd) :
    s.towers.flatten = [] ∨ (s.g.bMin = bMin ∧ s.g.bMax = bMax ∧ s.g.il = il ∧ ∃ ox oy, VCLRebuilt s ox oy) := by
  by_cases hn : vclNumParticles s.own old toAdd = 0
  · left
    rw [List.eq_nil_iff_forall_not_mem]
    intro p hp
    have hkeep := C63_rebuild_keeps cbrt hi.cbrtPos bMin bMax hi.x hi.y hi.z il hi.ilPos s.clusterSize hi.size s.pos s.own old toAdd hi.new s.towers
    rw [← h.grid] at hkeep
    obtain ⟨-, h2, h3⟩ := hkeep h.len h.perm
    have hc := List.count_pos_iff.2 hp
    have hm : p ∈ old.flatten ++ toAdd := by
      have := h2 p
      rw [← List.count_pos_iff, List.count_append]
      omega
    unfold vclNumParticles at hn
    rcases List.mem_append.1 hm with hm | hm
    · obtain ⟨t, ht, hpt⟩ := List.mem_flatten.1 hm
      have h0 : (old.map fun t => (t.filter fun p => decide (s.own p ≠ .dummy)).length).sum = 0 := by omega
      have h5 := List.single_le_sum (l := old.map fun t => (t.filter fun p => decide (s.own p ≠ .dummy)).length) (fun _ _ => Nat.zero_le _)
        _ (List.mem_map.2 ⟨t, ht, rfl⟩)
      have h4 := List.length_pos_of_mem (List.mem_filter.2 ⟨hpt, by simpa using h3 p hp⟩ : p ∈ t.filter fun p => decide (s.own p ≠ .dummy))
      simp only [h0] at h5
      omega
    · have := List.length_pos_of_mem hm
      omega
  · exact .inr (h.rebuilt hi hn)

variable {cutoff skin : Rat} {pos : P → V3 Rat} {own : P → Ownership}

theorem VCL.mem_of_received {a b : P} {info : VCLGrid} {t : VCLTraversal} {ox oy : Nat} (h : VCLRebuilt s ox oy) (ht : t.Admissible s info)
    (hx : timesReceived (s.calls info t) a b ≠ 0) : a ∈ s.towers.flatten ∧ b ∈ s.towers.flatten ∧ a ≠ b := by
  obtain ⟨c, hc, hx⟩ := mem_contributions_calls hx
  obtain ⟨h1, h2, h3, -⟩ := h.calls_mem (vcl_visits h info t ht) hc
  rcases hx with ⟨rfl, rfl⟩ | ⟨-, rfl, rfl⟩
  · exact ⟨h1, h2, h3⟩
  · exact ⟨h2, h1, h3.symm⟩

/-- On grids with the same number of towers per interaction length in x and y, every traversal that may be used computes complete
interactions, as long as the lists are kept. -/
theorem vcl_complete (hcut : 0 ≤ cutoff) (hskin : 0 ≤ skin) (hi : VCLInput cbrt bMin bMax (cutoff + skin) s.clusterSize s.pos s.own old toAdd)
    (h : VCLRebuiltFrom cbrt bMin bMax (cutoff + skin) old toAdd s) (heven : s.g.Even)
    (hk : ListsKept bMin bMax skin false s.pos pos s.own own s.towers.flatten) (info : VCLGrid) (t : VCLTraversal)
    (ht : t.Admissible s info) : CompleteCalls pos own cutoff s.towers.flatten (s.calls info t) := by
  rcases h.cases hi with he | ⟨-, -, hil, ox, oy, hb⟩
  · have e : s.calls info t = [] := by
      unfold VCL.calls
      rw [List.flatMap_eq_nil_iff]
      exact fun k _ => processCluster_nil he k
    rw [he, e]
    exact ⟨(fun a ha => by cases ha), fun a b => Nat.zero_le _, fun a b hx => absurd rfl hx⟩
  · have hv := vcl_visits hb info t ht
    have hmem := fun a b => VCL.mem_of_received (a := a) (b := b) hb ht
    refine ⟨?_, ?_, hmem⟩
    · intro a ha b hb' hab hao _ hd
      refine VCLBuilt.once ⟨hb, heven⟩ hv hab ha hb' (hk.owned a ha hao).1 ?_
      rw [hil]
      exact hk.near hcut hskin ha hb' hd
    · intro a b
      by_contra hx
      obtain ⟨ha, hb', hab⟩ := hmem a b (by omega)
      exact hx (hb.most hv hab ha hb')

/-- `computeInteractions`: the traversal of the container and the remainder traversal. -/
def vclInteractions (s : VCL P) (pos : P → V3 Rat) (own : P → Ownership) (cutoff : Rat) (info : VCLGrid) (t : VCLTraversal)
    (pb hb : List (List P)) : List (PairCall P) :=
  s.calls info t ++ remainder2B pos own s.newton3 cutoff s.towers.flatten pb hb

variable {pb hb : List (List P)}

/-- C65. Every owned particle receives the contribution of every other particle closer than the cutoff exactly once: after any rebuild, at
any later positions and ownerships for which the lists are kept, with any traversal, with and without Newton 3.
Missing for the full property: grids with different numbers of towers per interaction length in x and y (`C65_violated_uneven`), and sliced
traversals made for a grid different from the one of the rebuild (`C66_violated`). -/
theorem C65_every_neighbour_once_partial (hcut : 0 ≤ cutoff) (hskin : 0 ≤ skin)
    (hi : VCLInput cbrt bMin bMax (cutoff + skin) s.clusterSize s.pos s.own old toAdd)
    (h : VCLRebuiltFrom cbrt bMin bMax (cutoff + skin) old toAdd s) (heven : s.g.Even)
    (hk : ListsKept bMin bMax skin false s.pos pos s.own own s.towers.flatten) (info : VCLGrid) (t : VCLTraversal)
    (ht : t.Admissible s info) (hin : RemInput s.towers.flatten pb hb) (hhb : ∀ x ∈ hb.flatten, own x = .halo) (a b : P)
    (ha : a ∈ s.towers.flatten ++ (pb.flatten ++ hb.flatten)) (hb' : b ∈ s.towers.flatten ++ (pb.flatten ++ hb.flatten)) (hab : a ≠ b)
    (hao : own a = .owned) (hbo : own b ≠ .dummy) (hd : distSq (pos a) (pos b) < cutoff * cutoff) :
    timesReceived (vclInteractions s pos own cutoff info t pb hb) a b = 1 :=
  ((vcl_complete hcut hskin hi h heven hk info t ht).with_remainder hcut hin hhb s.newton3).once a ha b hb' hab hao hbo hd

/-- What the user sees: the sum over all other particles. Missing: as for `C65_every_neighbour_once_partial`. -/
theorem C65_accumulates_sum_partial {M : Type} [AddCommMonoid M] (hcut : 0 ≤ cutoff) (hskin : 0 ≤ skin)
    (hi : VCLInput cbrt bMin bMax (cutoff + skin) s.clusterSize s.pos s.own old toAdd)
    (h : VCLRebuiltFrom cbrt bMin bMax (cutoff + skin) old toAdd s) (heven : s.g.Even)
    (hk : ListsKept bMin bMax skin false s.pos pos s.own own s.towers.flatten) (info : VCLGrid) (t : VCLTraversal)
    (ht : t.Admissible s info) (hin : RemInput s.towers.flatten pb hb) (hhb : ∀ x ∈ hb.flatten, own x = .halo) (F : P → P → M)
    (hz : ∀ a b, (own b = .dummy ∨ cutoff * cutoff ≤ distSq (pos a) (pos b)) → F a b = 0) (a : P)
    (ha : a ∈ s.towers.flatten ++ (pb.flatten ++ hb.flatten)) (hao : own a = .owned) :
    accumulated F (vclInteractions s pos own cutoff info t pb hb) a =
      (((s.towers.flatten ++ (pb.flatten ++ hb.flatten)).filter fun b => b ≠ a).map (F a)).sum :=
  ((vcl_complete hcut hskin hi h heven hk info t ht).with_remainder hcut hin hhb s.newton3).accumulated hin.nodup F hz a ha hao

/-- On every grid, even or not, and at all later positions and ownerships: nothing is received twice, and only stored particles take
part. -/
theorem C65_nothing_twice (hi : VCLInput cbrt bMin bMax il s.clusterSize s.pos s.own old toAdd)
    (h : VCLRebuiltFrom cbrt bMin bMax il old toAdd s) (info : VCLGrid) (t : VCLTraversal) (ht : t.Admissible s info)
    (hin : RemInput s.towers.flatten pb hb) (a b : P) :
    timesReceived (vclInteractions s pos own cutoff info t pb hb) a b ≤ 1 ∧
    (timesReceived (vclInteractions s pos own cutoff info t pb hb) a b ≠ 0 →
      a ∈ s.towers.flatten ++ (pb.flatten ++ hb.flatten) ∧ b ∈ s.towers.flatten ++ (pb.flatten ++ hb.flatten) ∧ a ≠ b) := by
  have H : NoDoubleCalls s.towers.flatten (s.calls info t) := by
    rcases h.cases hi with he | ⟨-, -, hil, ox, oy, hb⟩
    · have e : s.calls info t = [] := by
        unfold VCL.calls
        rw [List.flatMap_eq_nil_iff]
        exact fun k _ => processCluster_nil he k
      rw [he, e]
      exact ⟨fun a b => Nat.zero_le _, fun a b hx => absurd rfl hx⟩
    · have hmem := fun a b => VCL.mem_of_received (a := a) (b := b) hb ht
      refine ⟨?_, hmem⟩
      intro a b
      by_contra hx
      obtain ⟨ha, hb', hab⟩ := hmem a b (by omega)
      exact hx (hb.most (vcl_visits hb info t ht) hab ha hb')
  have := H.with_remainder hin pos own cutoff s.newton3
  exact ⟨this.most a b, this.mem a b⟩

/-- Particles of two different clusters outside of the range of owned clusters of their towers do not interact. -/
theorem VCLRebuilt.halo_lost {ox oy : Nat} (h : VCLRebuilt s ox oy) {visits : List ClusterId} (hv : VisitsAll s visits) {a b : P} (hab : a ≠ b)
    (ha : a ∈ s.towers.flatten) (hb : b ∈ s.towers.flatten) (h1 : s.isHalo (s.home a) = true) (h2 : s.isHalo (s.home b) = true) :
    timesReceived (visits.flatMap s.processCluster) a b = 0 := by
  rw [h.received hv hab ha hb, List.countP_eq_zero]
  rintro ⟨k, k'⟩ ho hit
  obtain ⟨k₀, -, ho⟩ := List.mem_flatMap.1 ho
  obtain ⟨rfl, ho⟩ := VCL.mem_opsOf.1 ho
  simp only at ho
  have hh : s.isHalo k = true ∧ s.isHalo k' = true := by
    unfold clusterHit at hit
    rw [Bool.or_eq_true, Bool.and_eq_true, decide_eq_true_eq, decide_eq_true_eq] at hit
    rcases hit with hit | ⟨-, hit⟩ <;> obtain ⟨e1, e2⟩ := Prod.mk.inj hit <;> rw [e1, e2]
    · exact ⟨h1, h2⟩
    · exact ⟨h2, h1⟩
  rcases ho with ⟨-, ho⟩ | ho
  · rw [hh.1] at ho; cases ho
  · have := (VCL.mem_neighbours.1 ho).2
    unfold VCL.between at this
    split at this
    · cases this
    · simp only [List.mem_filter, Bool.and_eq_true, hh.1, hh.2] at this
      simp at this

end

/-! ### The violation -/

/-- Box 2 × 3 × 2.25, interaction length 1.2, clusters of one particle: towers of 1 × 1.5, two per interaction length in x, one in y. The
halo particle 1 is in the same tower as the owned particles. -/
def exUnevenParticles : List Particle :=
  [⟨0, ⟨1/2, 2, 1/2⟩, .owned⟩, ⟨1, ⟨1/2, 31/10, 1⟩, .halo⟩, ⟨2, ⟨1/2, 2, 3/2⟩, .owned⟩, ⟨3, ⟨1/2, 11/5, 8/5⟩, .owned⟩]

def exUneven4 (cbrt : Rat → Rat) (newton3 : Bool) : VCL Particle :=
  let g := vclEstimate cbrt ⟨0, 0, 0⟩ ⟨2, 3, 9/4⟩ (6/5) 1 4
  ⟨g, 1, vclRebuild g Particle.pos Particle.own [] exUnevenParticles, Particle.pos, Particle.own, newton3⟩

private def exUnevenGrid : VCLGrid := ⟨⟨0, 0, 0⟩, ⟨2, 3, 9/4⟩, 6/5, 1, 3/2, 6, 4⟩

private theorem exUneven4_grid (cbrt : Rat → Rat) (h : cbrt (27/8) = 3/2) :
    vclEstimate cbrt ⟨0, 0, 0⟩ ⟨2, 3, 9/4⟩ (6/5) 1 4 = exUnevenGrid := by
  have e1 : ⌈(4/3 : Rat)⌉ = 2 := Int.ceil_eq_iff.2 ⟨by norm_num, by norm_num⟩
  have e3 : ⌈(6/5 : Rat)⌉ = 2 := Int.ceil_eq_iff.2 ⟨by norm_num, by norm_num⟩
  have e4 : ⌈(4/5 : Rat)⌉ = 1 := Int.ceil_eq_iff.2 ⟨by norm_num, by norm_num⟩
  unfold vclEstimate exUnevenGrid
  norm_num
  rw [h]
  norm_num [e1, e3, e4]
  decide

private theorem exUneven_towers : vclRebuild exUnevenGrid Particle.pos Particle.own [] exUnevenParticles =
    List.replicate 20 [] ++ [exUnevenParticles] ++ List.replicate 3 [] := by decide +kernel

/-- C65 is violated: after a rebuild as it should be, two owned particles closer than the cutoff do not interact, with and without Newton 3,
with every traversal: the halo particle between them ends the range of owned clusters of their tower. -/
theorem C65_violated_uneven (cbrt : Rat → Rat) (hcbrt : ∀ x, 0 < x → 0 < cbrt x) (h : cbrt (27/8) = 3/2) (newton3 : Bool) (info : VCLGrid)
    (t : VCLTraversal) (ht : t.Admissible (exUneven4 cbrt newton3) info) :
    VCLInput cbrt ⟨0, 0, 0⟩ ⟨2, 3, 9/4⟩ (1 + 1/5) 1 Particle.pos Particle.own [] exUnevenParticles ∧
    VCLRebuiltFrom cbrt ⟨0, 0, 0⟩ ⟨2, 3, 9/4⟩ (1 + 1/5) [] exUnevenParticles (exUneven4 cbrt newton3) ∧
    ∃ a ∈ exUnevenParticles, ∃ b ∈ exUnevenParticles, a ≠ b ∧ a.own = .owned ∧ b.own = .owned ∧ distSq a.pos b.pos < 1 * 1 ∧
      timesReceived ((exUneven4 cbrt newton3).calls info t) a b = 0 ∧ timesReceived ((exUneven4 cbrt newton3).calls info t) b a = 0 := by
  have eil : (1 + 1/5 : Rat) = 6/5 := by norm_num
  rw [eil]
  have hinput : VCLInput cbrt ⟨0, 0, 0⟩ ⟨2, 3, 9/4⟩ (6/5) 1 Particle.pos Particle.own [] exUnevenParticles :=
    ⟨hcbrt, by norm_num, by norm_num, by norm_num, by norm_num, by norm_num, by decide +kernel, by decide +kernel, by decide +kernel,
      by decide +kernel⟩
  have hfrom : VCLRebuiltFrom cbrt ⟨0, 0, 0⟩ ⟨2, 3, 9/4⟩ (6/5) [] exUnevenParticles (exUneven4 cbrt newton3) := by
    refine ⟨rfl, vclRebuild_length _ _ _ _ _, fun i => List.Perm.refl _, ?_⟩
    unfold exUneven4
    simp only
    rw [exUneven4_grid cbrt h, exUneven_towers]
    decide +kernel
  refine ⟨hinput, hfrom, ⟨2, ⟨1/2, 2, 3/2⟩, .owned⟩, by decide +kernel, ⟨3, ⟨1/2, 11/5, 8/5⟩, .owned⟩, by decide +kernel, by decide, rfl, rfl,
    by decide +kernel, ?_⟩
  obtain ⟨-, -, -, ox, oy, hb⟩ := hfrom.rebuilt hinput (by show vclNumParticles Particle.own [] exUnevenParticles ≠ 0; decide)
  have hv := vcl_visits hb info t ht
  have key : ∀ newton3 : Bool, ∀ s : VCL Particle, s = ⟨exUnevenGrid, 1, List.replicate 20 [] ++ [exUnevenParticles] ++ List.replicate 3 [], Particle.pos,
      Particle.own, newton3⟩ → (⟨2, ⟨1/2, 2, 3/2⟩, .owned⟩ : Particle) ∈ s.towers.flatten ∧
      (⟨3, ⟨1/2, 11/5, 8/5⟩, .owned⟩ : Particle) ∈ s.towers.flatten ∧ s.isHalo (s.home ⟨2, ⟨1/2, 2, 3/2⟩, .owned⟩) = true ∧
      s.isHalo (s.home ⟨3, ⟨1/2, 11/5, 8/5⟩, .owned⟩) = true := by
    intro newton3 s hs
    subst hs
    cases newton3 <;> decide +kernel
  obtain ⟨k1, k2, k3, k4⟩ := key newton3 (exUneven4 cbrt newton3) (by
    unfold exUneven4
    simp only
    rw [exUneven4_grid cbrt h, exUneven_towers])
  exact ⟨hb.halo_lost hv (by decide) k1 k2 k3 k4, hb.halo_lost hv (by decide) k2 k1 k4 k3⟩

/-! ### A case that meets the hypotheses -/

private def exEvenParticles : List Particle :=
  [⟨0, ⟨1/2, 1/2, 1/2⟩, .owned⟩, ⟨1, ⟨3/2, 1/2, 1/2⟩, .owned⟩, ⟨2, ⟨6/5, 6/5, 1/5⟩, .owned⟩, ⟨3, ⟨-3/10, 1/2, 1/2⟩, .halo⟩]

private def exEven : VCL Particle :=
  ⟨vclEstimate (fun _ => 1) ⟨0, 0, 0⟩ ⟨2, 2, 1⟩ 1 1 4, 1,
    vclRebuild (vclEstimate (fun _ => 1) ⟨0, 0, 0⟩ ⟨2, 2, 1⟩ 1 1 4) Particle.pos Particle.own [] exEvenParticles, Particle.pos, Particle.own, true⟩

/-- Four particles in a box of 2 × 2 × 1 with cutoff 0.9 and skin 0.1, Newton 3; `vcl_c06` and `vcl_sliced_c02` may be used, and particle 0
receives the contribution of the halo particle 3 once. -/
example : VCLInput (fun _ => 1) ⟨0, 0, 0⟩ ⟨2, 2, 1⟩ (9/10 + 1/10) exEven.clusterSize exEven.pos exEven.own [] exEvenParticles ∧
    VCLRebuiltFrom (fun _ => 1) ⟨0, 0, 0⟩ ⟨2, 2, 1⟩ (9/10 + 1/10) [] exEvenParticles exEven ∧ exEven.g.Even ∧
    ListsKept ⟨0, 0, 0⟩ ⟨2, 2, 1⟩ (1/10) false exEven.pos Particle.pos exEven.own Particle.own exEven.towers.flatten ∧
    VCLTraversal.c06.Admissible exEven exEven.g ∧ VCLTraversal.slicedC02.Admissible exEven exEven.g ∧
    timesReceived (vclInteractions exEven Particle.pos Particle.own (9/10) exEven.g .slicedC02 [] []) (⟨0, ⟨1/2, 1/2, 1/2⟩, .owned⟩ : Particle)
      (⟨3, ⟨-3/10, 1/2, 1/2⟩, .halo⟩ : Particle) = 1 := by
  have eil : (9/10 + 1/10 : Rat) = 1 := by norm_num
  have h1 : VCLInput (fun _ => 1) ⟨0, 0, 0⟩ ⟨2, 2, 1⟩ (9/10 + 1/10) exEven.clusterSize exEven.pos exEven.own [] exEvenParticles := by
    rw [eil]
    exact ⟨fun _ _ => by norm_num, by norm_num, by norm_num, by norm_num, by norm_num, by decide, by decide +kernel, by decide +kernel,
      by decide +kernel, by decide +kernel⟩
  have h2 : VCLRebuiltFrom (fun _ => 1) ⟨0, 0, 0⟩ ⟨2, 2, 1⟩ (9/10 + 1/10) [] exEvenParticles exEven := by
    rw [eil]
    refine ⟨rfl, vclRebuild_length _ _ _ _ _, fun i => List.Perm.refl _, ?_⟩
    decide +kernel
  have h3 : exEven.g.Even := by unfold VCLGrid.Even; decide +kernel
  have h4 : ListsKept ⟨0, 0, 0⟩ ⟨2, 2, 1⟩ (1/10) false exEven.pos Particle.pos exEven.own Particle.own exEven.towers.flatten :=
    ⟨by decide +kernel, by decide +kernel, fun _ _ _ h => h⟩
  refine ⟨h1, h2, h3, h4, trivial, rfl, ?_⟩
  exact C65_every_neighbour_once_partial (by norm_num) (by norm_num) h1 h2 h3 h4 _ .slicedC02 rfl ⟨by decide +kernel, rfl⟩ (by simp) _ _
    (by decide +kernel) (by decide +kernel) (by decide) rfl (by decide) (by decide +kernel)

end Verif
