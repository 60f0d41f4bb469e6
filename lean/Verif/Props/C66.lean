import Verif.Props.C65
/-!
# C66 — sliced traversals of VerletClusterLists between rebuilds

A traversal object is made in every step. The sliced traversals take the numbers of towers from an estimate for the number of particles at that
time, not from the towers that were built. As long as both agree all interactions are computed. When particles were deleted since the rebuild
the estimate can be smaller, and then towers are not processed.
-/
namespace Verif
open Spec

section
variable {P : Type}

/-- The grid that `getTraversalSelectorInfo` estimates, VerletClusterLists.h:389-399: for the owned and halo particles now. -/
def vclInfo (cbrt : Rat → Rat) (bMin bMax : V3 Rat) (il : Rat) (own : P → Ownership) (s : VCL P) : VCLGrid :=
  vclEstimate cbrt bMin bMax il s.clusterSize (s.towers.flatten.countP fun p => decide (own p ≠ .dummy))

private theorem owned_of_towers {box s1 s2 il : Rat} {o1 o2 : Nat} (h1 : s1 * o1 = box) (h2 : s2 * o2 = box) (p2 : 0 < s2) (p1 : 0 < s1)
    (hil : 0 < il) (hb : 0 < box) (hlt : o1 < o2) : o1 + 2 * ⌈il / s1⌉.toNat < o2 + 2 * ⌈il / s2⌉.toNat := by
  have hc : (o1 : Rat) < o2 := by exact_mod_cast hlt
  have hs : s2 < s1 := by
    by_contra hx
    rw [not_lt] at hx
    have : s1 * o1 < s2 * o2 := by
      calc s1 * o1 < s1 * o2 := mul_lt_mul_of_pos_left hc p1
        _ ≤ s2 * o2 := mul_le_mul_of_nonneg_right hx (by exact_mod_cast Nat.zero_le _)
    rw [h1, h2] at this
    exact lt_irrefl _ this
  have : il / s1 ≤ il / s2 := div_le_div_of_nonneg_left hil.le p2 hs.le
  have := Int.ceil_le_ceil this
  omega

/-- Same numbers of towers, same grid. -/
theorem grid_of_towers {g g' : VCLGrid} {ox oy ox' oy' : Nat} (h : g.Ok ox oy) (h' : g'.Ok ox' oy') (hmin : g.bMin = g'.bMin)
    (hmax : g.bMax = g'.bMax) (hil : g.il = g'.il) (hx : g.tx = g'.tx) (hy : g.ty = g'.ty) : g = g' := by
  have t1 := h.tx
  have t2 := h.ty
  have t1' := h'.tx
  have t2' := h'.ty
  have b1 := h.boxX
  have b2 := h.boxY
  have b1' := h'.boxX
  have b2' := h'.boxY
  rw [← hmin, ← hmax] at b1' b2'
  have px : 0 < g.bMax.x - g.bMin.x := by rw [← b1]; exact mul_pos h.sxPos (by exact_mod_cast h.oxPos)
  have py : 0 < g.bMax.y - g.bMin.y := by rw [← b2]; exact mul_pos h.syPos (by exact_mod_cast h.oyPos)
  unfold VCLGrid.perX at t1 t1'
  unfold VCLGrid.perY at t2 t2'
  rw [← hil] at t1' t2'
  have ex : ox = ox' := by
    rcases lt_trichotomy ox ox' with c | c | c
    · have := owned_of_towers b1 b1' h'.sxPos h.sxPos h.ilPos px c; omega
    · exact c
    · have := owned_of_towers b1' b1 h.sxPos h'.sxPos h.ilPos px c; omega
  have ey : oy = oy' := by
    rcases lt_trichotomy oy oy' with c | c | c
    · have := owned_of_towers b2 b2' h'.syPos h.syPos h.ilPos py c; omega
    · exact c
    · have := owned_of_towers b2' b2 h.syPos h'.syPos h.ilPos py c; omega
  subst ex ey
  have sx : g.sideX = g'.sideX :=
    mul_right_cancel₀ (b := (ox : Rat)) (by exact_mod_cast h.oxPos.ne') (b1.trans b1'.symm)
  have sy : g.sideY = g'.sideY :=
    mul_right_cancel₀ (b := (oy : Rat)) (by exact_mod_cast h.oyPos.ne') (b2.trans b2'.symm)
  rcases g with ⟨a1, a2, a3, a4, a5, a6, a7⟩
  rcases g' with ⟨c1, c2, c3, c4, c5, c6, c7⟩
  simp only at hmin hmax hil hx hy sx sy
  rw [hmin, hmax, hil, hx, hy, sx, sy]

variable [DecidableEq P] {cbrt : Rat → Rat} {bMin bMax : V3 Rat} {cutoff skin : Rat} {old : List (List P)} {toAdd : List P} {s : VCL P}
  {pos : P → V3 Rat} {own : P → Ownership} {pb hb : List (List P)}

/-- C66. With the traversal made for the particles that are there now, every owned particle receives the contribution of every other particle
closer than the cutoff exactly once, provided that the estimated numbers of towers are those of the rebuild.
Missing: other estimates (`C66_violated`), and different numbers of towers per interaction length in x and y (`C65_violated_uneven`). -/
theorem C66_same_towers_partial (hcut : 0 ≤ cutoff) (hskin : 0 ≤ skin)
    (hi : VCLInput cbrt bMin bMax (cutoff + skin) s.clusterSize s.pos s.own old toAdd)
    (h : VCLRebuiltFrom cbrt bMin bMax (cutoff + skin) old toAdd s) (heven : s.g.Even)
    (hk : ListsKept bMin bMax skin false s.pos pos s.own own s.towers.flatten)
    (hx : (vclInfo cbrt bMin bMax (cutoff + skin) own s).tx = s.g.tx) (hy : (vclInfo cbrt bMin bMax (cutoff + skin) own s).ty = s.g.ty)
    (t : VCLTraversal) (ht : t.Admissible s s.g) (hin : RemInput s.towers.flatten pb hb) (hhb : ∀ x ∈ hb.flatten, own x = .halo) (a b : P)
    (ha : a ∈ s.towers.flatten ++ (pb.flatten ++ hb.flatten)) (hb' : b ∈ s.towers.flatten ++ (pb.flatten ++ hb.flatten)) (hab : a ≠ b)
    (hao : own a = .owned) (hbo : own b ≠ .dummy) (hd : distSq (pos a) (pos b) < cutoff * cutoff) :
    timesReceived (vclInteractions s pos own cutoff (vclInfo cbrt bMin bMax (cutoff + skin) own s) t pb hb) a b = 1 := by
  have key : s.towers.flatten = [] ∨ vclInfo cbrt bMin bMax (cutoff + skin) own s = s.g := by
    rcases h.cases hi with he | ⟨h1, h2, h3, ox, oy, hr⟩
    · exact .inl he
    · right
      have hd := hr.ok.dims
      by_cases hn : s.towers.flatten.countP (fun p => decide (own p ≠ .dummy)) = 0
      · unfold vclInfo vclEstimate at hx
        rw [if_pos hn] at hx
        simp only at hx
        omega
      · obtain ⟨ox', oy', hok⟩ := vclEstimate_ok cbrt hi.cbrtPos bMin bMax (cutoff + skin) s.clusterSize _ hi.x hi.y hi.z hi.ilPos hi.size
          (Nat.pos_of_ne_zero hn)
        have hbb : (vclInfo cbrt bMin bMax (cutoff + skin) own s).bMin = bMin ∧ (vclInfo cbrt bMin bMax (cutoff + skin) own s).bMax = bMax ∧
            (vclInfo cbrt bMin bMax (cutoff + skin) own s).il = cutoff + skin := by
          unfold vclInfo vclEstimate
          rw [if_neg hn]
          exact ⟨rfl, rfl, rfl⟩
        exact grid_of_towers hok hr.ok (hbb.1.trans h1.symm) (hbb.2.1.trans h2.symm) (hbb.2.2.trans h3.symm) hx hy
  rcases key with he | e
  · have e : ∀ info, s.calls info t = [] := by
      intro info
      unfold VCL.calls
      rw [List.flatMap_eq_nil_iff]
      exact fun k _ => processCluster_nil he k
    have := C65_every_neighbour_once_partial hcut hskin hi h heven hk s.g t ht hin hhb a b ha hb' hab hao hbo hd
    unfold vclInteractions at this ⊢
    rw [e] at this ⊢
    exact this
  · rw [e]
    exact C65_every_neighbour_once_partial hcut hskin hi h heven hk s.g t ht hin hhb a b ha hb' hab hao hbo hd

/-- Particles of clusters that are not processed do not interact with each other. -/
theorem VCLRebuilt.unvisited_lost {ox oy : Nat} (h : VCLRebuilt s ox oy) {visits : List ClusterId} {a b : P}
    (hv : ∀ k ∈ visits, k.1.1 < s.g.tx ∧ k ≠ s.home a ∧ k ≠ s.home b) :
    timesReceived (visits.flatMap s.processCluster) a b = 0 := by
  by_contra hx
  obtain ⟨c, hc, hab⟩ := mem_contributions_calls hx
  obtain ⟨k, hk, hc⟩ := List.mem_flatMap.1 hc
  obtain ⟨l, n1, n2⟩ := hv k hk
  have hm : c.p ∈ s.members k ∨ c.q ∈ s.members k := by
    rw [VCL.processCluster_ops] at hc
    obtain ⟨o, ho, hc⟩ := List.mem_flatMap.1 hc
    have e1 := (VCL.mem_opsOf.1 ho).1
    rw [← e1]
    unfold VCL.op at hc
    split at hc
    · unfold soaSingle at hc
      obtain ⟨t, ht, hc⟩ := List.mem_flatMap.1 hc
      have hm := mem_pairLoop ht
      unfold interactCross at hc
      split at hc <;> simp at hc
      · subst hc; exact .inl hm.1
      · rcases hc with rfl | rfl
        · exact .inl hm.1
        · exact .inl hm.2
    · rw [soaPair_eq s.newton3 false _ _ (.inr rfl)] at hc
      obtain ⟨t, ht, hc⟩ := List.mem_flatMap.1 hc
      have hm := mem_crossLoop ht
      unfold interactCross at hc
      split at hc <;> simp at hc
      all_goals subst hc; exact .inl hm.1
  rw [h.mem_members l, h.mem_members l] at hm
  rcases hm with ⟨-, hm⟩ | ⟨-, hm⟩ <;> rcases hab with ⟨e1, e2⟩ | ⟨-, e1, e2⟩ <;> subst e1 e2
  · exact n1 hm.symm
  · exact n2 hm.symm
  · exact n2 hm.symm
  · exact n1 hm.symm

end

/-! ### The violation -/

/-- Nine owned particles in the box [0, 2)³; 0 and 1 are close to each other in the upper corner, 8 is going to be deleted. -/
def exNine : List Particle :=
  [⟨0, ⟨19/10, 19/10, 1/2⟩, .owned⟩, ⟨1, ⟨19/10, 19/10, 7/10⟩, .owned⟩, ⟨2, ⟨1/10, 1/10, 1/10⟩, .owned⟩, ⟨3, ⟨2/10, 1/10, 2/10⟩, .owned⟩,
   ⟨4, ⟨3/10, 1/10, 3/10⟩, .owned⟩, ⟨5, ⟨4/10, 1/10, 4/10⟩, .owned⟩, ⟨6, ⟨5/10, 1/10, 5/10⟩, .owned⟩, ⟨7, ⟨6/10, 1/10, 6/10⟩, .owned⟩,
   ⟨8, ⟨7/10, 1/10, 7/10⟩, .owned⟩]

/-- Particle 8 was deleted: marked as dummy, since the lists are kept. -/
def exNineOwn (p : Particle) : Ownership := if p.id = 8 then .dummy else p.own

def exNineVCL (cbrt : Rat → Rat) (newton3 : Bool) : VCL Particle :=
  let g := vclEstimate cbrt ⟨0, 0, 0⟩ ⟨2, 2, 2⟩ 1 1 9
  ⟨g, 1, vclRebuild g Particle.pos Particle.own [] exNine, Particle.pos, Particle.own, newton3⟩

private def exNineGrid : VCLGrid := ⟨⟨0, 0, 0⟩, ⟨2, 2, 2⟩, 1, 2/3, 2/3, 7, 7⟩
private def exEightGrid : VCLGrid := ⟨⟨0, 0, 0⟩, ⟨2, 2, 2⟩, 1, 1, 1, 4, 4⟩

private theorem exNine_grid (cbrt : Rat → Rat) (h1 : 2/3 ≤ cbrt (8/9)) (h2 : cbrt (8/9) < 1) :
    vclEstimate cbrt ⟨0, 0, 0⟩ ⟨2, 2, 2⟩ 1 1 9 = exNineGrid := by
  have hp : (0 : Rat) < cbrt (8/9) := by linarith
  have e1 : ⌈(2 : Rat) / cbrt (8/9)⌉ = 3 := by
    rw [Int.ceil_eq_iff]
    constructor
    · rw [lt_div_iff₀ hp]; push_cast; linarith
    · rw [div_le_iff₀ hp]; push_cast; linarith
  have e3 : ⌈(3/2 : Rat)⌉ = 2 := Int.ceil_eq_iff.2 ⟨by norm_num, by norm_num⟩
  unfold vclEstimate exNineGrid
  norm_num
  norm_num [e1, e3]
  decide

private theorem exEight_grid (cbrt : Rat → Rat) (h : cbrt 1 = 1) : vclEstimate cbrt ⟨0, 0, 0⟩ ⟨2, 2, 2⟩ 1 1 8 = exEightGrid := by
  have e1 : ⌈(2 : Rat)⌉ = 2 := Int.ceil_eq_iff.2 ⟨by norm_num, by norm_num⟩
  unfold vclEstimate exEightGrid
  norm_num
  rw [h]
  norm_num [e1]
  decide

private theorem exEight_ok : exEightGrid.Ok 2 2 := by
  refine ⟨by decide, by decide, by norm_num [exEightGrid], by norm_num [exEightGrid], by norm_num [exEightGrid], by norm_num [exEightGrid],
    by norm_num [exEightGrid], by norm_num [exEightGrid], ?_, ?_⟩ <;> simp [VCLGrid.perX, VCLGrid.perY, exEightGrid]

private def exNineTowers : List (List Particle) := vclRebuild exNineGrid Particle.pos Particle.own [] exNine

private theorem exNine_facts : exNineTowers.flatten.countP (fun p => decide (exNineOwn p ≠ .dummy)) = 8 ∧
    (∀ t ∈ exNineTowers, t.Pairwise fun p q => p.pos.z ≤ q.pos.z) ∧
    exNineGrid.towerAt ⟨19/10, 19/10, 1/2⟩ = (4, 4) ∧ exNineGrid.towerAt ⟨19/10, 19/10, 7/10⟩ = (4, 4) ∧
    (∀ p ∈ exNineTowers.flatten, 4 * distSq p.pos p.pos ≤ (1/10 : Rat) * (1/10)) ∧
    (∀ p ∈ exNineTowers.flatten, exNineOwn p = .owned → p.own = .owned ∧ InBox p.pos ⟨0, 0, 0⟩ ⟨2, 2, 2⟩) ∧
    exNineGrid.Even ∧ (∀ p ∈ exNine, p ∈ exNineTowers.flatten) := by
  unfold VCLGrid.Even
  decide +kernel

/-- C66 is violated. The towers were built for nine particles, 7 in x and y; nothing has moved, one particle was deleted. The sliced
traversals are made for 4 towers in x and y and do not process the towers of particles 0 and 1: they do not interact, although they are
owned and closer than the cutoff. (`2/3 ≤ cbrt (8/9) < 1` and `cbrt 1 = 1` hold of the cube root.) -/
theorem C66_violated (cbrt : Rat → Rat) (hcbrt : ∀ x, 0 < x → 0 < cbrt x) (h1 : 2/3 ≤ cbrt (8/9)) (h2 : cbrt (8/9) < 1) (h3 : cbrt 1 = 1)
    (newton3 : Bool) :
    let s := exNineVCL cbrt newton3
    let info := vclInfo cbrt ⟨0, 0, 0⟩ ⟨2, 2, 2⟩ (9/10 + 1/10) exNineOwn s
    VCLInput cbrt ⟨0, 0, 0⟩ ⟨2, 2, 2⟩ (9/10 + 1/10) s.clusterSize s.pos s.own [] exNine ∧
    VCLRebuiltFrom cbrt ⟨0, 0, 0⟩ ⟨2, 2, 2⟩ (9/10 + 1/10) [] exNine s ∧ s.g.Even ∧
    ListsKept ⟨0, 0, 0⟩ ⟨2, 2, 2⟩ (1/10) false s.pos Particle.pos s.own exNineOwn s.towers.flatten ∧
    ∃ a ∈ s.towers.flatten, ∃ b ∈ s.towers.flatten, a ≠ b ∧ exNineOwn a = .owned ∧ exNineOwn b = .owned ∧
      distSq a.pos b.pos < 9/10 * (9/10) ∧ timesReceived (s.calls info .slicedC02) a b = 0 ∧
      ∀ thick, (VLCTraversal.sliced thick).Applicable newton3 (vclSelectorDims info) (vclSelectorLength info) s.g.il →
        timesReceived (s.calls info (.sliced thick)) a b = 0 := by
  intro s info
  have eil : (9/10 + 1/10 : Rat) = 1 := by norm_num
  have es : s = ⟨exNineGrid, 1, exNineTowers, Particle.pos, Particle.own, newton3⟩ := by
    show exNineVCL cbrt newton3 = _
    unfold exNineVCL exNineTowers
    simp only
    rw [exNine_grid cbrt h1 h2]
  obtain ⟨f1, f2, f3, f4, f5, f6, f7, f8⟩ := exNine_facts
  have einfo : info = exEightGrid := by
    show vclInfo _ _ _ _ _ s = _
    unfold vclInfo
    rw [eil, es]
    simp only
    rw [f1, exEight_grid cbrt h3]
  have hinput : VCLInput cbrt ⟨0, 0, 0⟩ ⟨2, 2, 2⟩ (9/10 + 1/10) s.clusterSize s.pos s.own [] exNine := by
    rw [eil]
    show VCLInput cbrt ⟨0, 0, 0⟩ ⟨2, 2, 2⟩ 1 1 Particle.pos Particle.own [] exNine
    exact ⟨hcbrt, by norm_num, by norm_num, by norm_num, by norm_num, by norm_num, by decide +kernel, by decide +kernel, by decide +kernel,
      by decide +kernel⟩
  have hfrom : VCLRebuiltFrom cbrt ⟨0, 0, 0⟩ ⟨2, 2, 2⟩ (9/10 + 1/10) [] exNine s := by
    rw [eil]
    refine ⟨rfl, vclRebuild_length _ _ _ _ _, fun i => List.Perm.refl _, ?_⟩
    rw [es]
    exact f2
  have hkept : ListsKept ⟨0, 0, 0⟩ ⟨2, 2, 2⟩ (1/10) false s.pos Particle.pos s.own exNineOwn s.towers.flatten := by
    rw [es]
    refine ⟨f5, f6, ?_⟩
    intro _ p _ hp
    simp only at hp
    unfold exNineOwn
    split
    · rfl
    · exact hp
  obtain ⟨-, -, -, ox, oy, hr⟩ := hfrom.rebuilt hinput (by show vclNumParticles Particle.own [] exNine ≠ 0; decide)
  obtain ⟨hl1, hl2⟩ := exEight_ok.longest
  have lost : ∀ t : VLCTraversal, (t = .slicedC02 ∨ ∃ thick, t = .sliced thick) → t.Applicable newton3 (vclSelectorDims exEightGrid)
      (vclSelectorLength exEightGrid) 1 → timesReceived
        (((t.bases (vclSelectorDims exEightGrid) (vclSelectorLength exEightGrid) 1).map fun phase =>
          phase.map fun slice => slice.flatMap fun b => s.clustersOf (b.x, b.y)).flatten.flatten.flatMap s.processCluster)
        (⟨0, ⟨19/10, 19/10, 1/2⟩, .owned⟩ : Particle) (⟨1, ⟨19/10, 19/10, 7/10⟩, .owned⟩ : Particle) = 0 := by
    intro t ht happ
    have hB := (vlcBases_facts_of (il := 1) hl1 hl2 t newton3 happ).2
    apply hr.unvisited_lost
    intro k hk
    rw [nested_flatMap] at hk
    obtain ⟨b, hb, hk⟩ := List.mem_flatMap.1 hk
    have hg := ((hB b).1 hb).1
    unfold VCL.clustersOf at hk
    obtain ⟨n, -, rfl⟩ := List.mem_map.1 hk
    have hx : b.x < 4 := hg.1
    have hne : ∀ q : Particle, exNineGrid.towerAt q.pos = (4, 4) → ((b.x, b.y), n) ≠ s.home q := by
      intro q hq e
      have e := congrArg (fun k : ClusterId => k.1.1) e
      unfold VCL.home at e
      rw [es] at e
      simp only [hq] at e
      omega
    refine ⟨?_, hne _ f3, hne _ f4⟩
    rw [es]
    show b.x < 7
    omega
  refine ⟨hinput, hfrom, by rw [es]; exact f7, hkept, ⟨0, ⟨19/10, 19/10, 1/2⟩, .owned⟩, ?_, ⟨1, ⟨19/10, 19/10, 7/10⟩, .owned⟩, ?_, by decide,
    by decide, by decide, by decide +kernel, ?_, ?_⟩
  · rw [es]; exact f8 _ (by decide +kernel)
  · rw [es]; exact f8 _ (by decide +kernel)
  · have := lost .slicedC02 (.inl rfl) trivial
    unfold VCL.calls VCL.packages
    have e1 : s.g.il = 1 := by rw [es]; rfl
    rw [e1, einfo]
    exact this
  · intro thick hthick
    have e1 : s.g.il = 1 := by rw [es]; rfl
    rw [e1, einfo] at hthick
    have := lost (.sliced thick) (.inr ⟨thick, rfl⟩) hthick
    unfold VCL.calls VCL.packages
    rw [e1, einfo]
    exact this

/-- The hypotheses of `C66_same_towers_partial` can be met after a deletion: with towers of any size (`cbrt` constant) the estimate does not
change. -/
example : (vclInfo (fun _ => 1) ⟨0, 0, 0⟩ ⟨2, 2, 2⟩ 1 exNineOwn (exNineVCL (fun _ => 1) true)).tx = (exNineVCL (fun _ => 1) true).g.tx ∧
    VCLTraversal.slicedC02.Admissible (exNineVCL (fun _ => 1) true) (exNineVCL (fun _ => 1) true).g := ⟨by decide +kernel, rfl⟩

end Verif
