import Verif.Props.C66
import Verif.Props.C57
/-!
# C67 — VerletClusterLists computes interactions without data races

Packages of one phase run concurrently: the towers or ranges of clusters of `vcl_cluster_iteration` and `vcl_c01_balanced`, the cells of a colour
of `vcl_c06`, the slices of a colour of `vcl_sliced_c02`. All slices of `vcl_sliced` and `vcl_sliced_balanced` run concurrently and are coordinated
by locks (the transition system of C14). A functor call updates its first particle, with Newton 3 both. All of this is about every grid, also
about those for which C65 fails. It fails between rebuilds for the sliced traversals, as C66 does.
-/
namespace Verif
open Spec

section
variable {P : Type} [DecidableEq P] {s : VCL P} {ox oy : Nat}

/-! ### Who is updated -/

private theorem foldl_min_mem (l : List Rat) (x : Rat) : l.foldl min x = x ∨ l.foldl min x ∈ l := by
  induction l generalizing x with
  | nil => exact .inl rfl
  | cons y l ih =>
    rw [List.foldl_cons]
    rcases ih (min x y) with h | h
    · rw [h]
      rcases min_choice x y with e | e <;> rw [e]
      · exact .inl rfl
      · exact .inr List.mem_cons_self
    · exact .inr (List.mem_cons_of_mem _ h)

private theorem foldl_max_mem (l : List Rat) (x : Rat) : l.foldl max x = x ∨ l.foldl max x ∈ l := by
  induction l generalizing x with
  | nil => exact .inl rfl
  | cons y l ih =>
    rw [List.foldl_cons]
    rcases ih (max x y) with h | h
    · rw [h]
      rcases max_choice x y with e | e <;> rw [e]
      · exact .inl rfl
      · exact .inr List.mem_cons_self
    · exact .inr (List.mem_cons_of_mem _ h)

/-- The borders of the bounding box in x and y are those of particles. -/
private theorem boundingBox_attained {ps : List (V3 Rat)} (h : ps ≠ []) :
    (∃ p ∈ ps, (vclBoundingBox ps).1.x = p.x) ∧ (∃ p ∈ ps, (vclBoundingBox ps).2.x = p.x) ∧
    (∃ p ∈ ps, (vclBoundingBox ps).1.y = p.y) ∧ (∃ p ∈ ps, (vclBoundingBox ps).2.y = p.y) := by
  have hf : ps.headD ⟨0, 0, 0⟩ ∈ ps := by
    cases ps with
    | nil => exact absurd rfl h
    | cons p ps => exact List.mem_cons_self
  have hl : ps.getLastD ⟨0, 0, 0⟩ ∈ ps := by
    rw [List.getLastD_eq_getLast?, List.getLast?_eq_getLast_of_ne_nil h]
    exact List.getLast_mem h
  unfold vclBoundingBox
  simp only
  refine ⟨?_, ?_, ?_, ?_⟩
  · rcases foldl_min_mem (ps.map V3.x) (ps.headD ⟨0, 0, 0⟩).x with e | e
    · exact ⟨_, hf, e⟩
    · obtain ⟨p, hp, e⟩ := List.mem_map.1 e; exact ⟨p, hp, e.symm⟩
  · rcases foldl_max_mem (ps.map V3.x) (ps.getLastD ⟨0, 0, 0⟩).x with e | e
    · exact ⟨_, hl, e⟩
    · obtain ⟨p, hp, e⟩ := List.mem_map.1 e; exact ⟨p, hp, e.symm⟩
  · rcases foldl_min_mem (ps.map V3.y) (ps.headD ⟨0, 0, 0⟩).y with e | e
    · exact ⟨_, hf, e⟩
    · obtain ⟨p, hp, e⟩ := List.mem_map.1 e; exact ⟨p, hp, e.symm⟩
  · rcases foldl_max_mem (ps.map V3.y) (ps.getLastD ⟨0, 0, 0⟩).y with e | e
    · exact ⟨_, hl, e⟩
    · obtain ⟨p, hp, e⟩ := List.mem_map.1 e; exact ⟨p, hp, e.symm⟩

/-- The positions from which bounding boxes are made are positions of particles of the tower. -/
private theorem positions_mem {cs : Nat} {pos : P → V3 Rat} {tower : List P} {k : Nat} (hne : tower ≠ []) {x : V3 Rat}
    (hx : x ∈ vclPositions cs pos tower k) : ∃ p ∈ tower, x = pos p := by
  unfold vclPositions at hx
  obtain ⟨o, ho, rfl⟩ := List.mem_map.1 hx
  cases o with
  | none =>
    rw [List.getLast?_eq_getLast_of_ne_nil hne]
    exact ⟨tower.getLast hne, List.getLast_mem hne, rfl⟩
  | some p =>
    have := List.mem_of_mem_drop (List.mem_of_mem_take ho)
    unfold vclStorage at this
    rcases List.mem_append.1 this with h | h
    · obtain ⟨q, hq, e⟩ := List.mem_map.1 h
      cases e
      exact ⟨p, hq, rfl⟩
    · cases (List.mem_replicate.1 h).2

private theorem dimIndex_shift {bMin lo hi side x y il : Rat} {per T : Nat} (hs : 0 < side) (hil : 0 < il) (hx : lo ≤ x ∧ x < hi)
    (hy : lo ≤ y ∧ y < hi) (h : x - y ≤ il) :
    vclDimIndex bMin lo hi side per T x ≤ vclDimIndex bMin lo hi side per T y + ⌈il / side⌉.toNat := by
  unfold vclDimIndex
  rw [if_neg (by linarith [hx.2]), if_neg (by linarith [hx.1]), if_neg (by linarith [hy.2]), if_neg (by linarith [hy.1])]
  have hp := ceil_toNat_pos hil hs
  have h1 : (x - bMin) * (1 / side) ≤ (y - bMin) * (1 / side) + (⌈il / side⌉ : Int) := by
    have e : (x - bMin) * (1 / side) = (y - bMin) * (1 / side) + (x - y) / side := by field_simp; ring
    rw [e]
    have : (x - y) / side ≤ il / side := div_le_div_of_nonneg_right h hs.le
    have := Int.le_ceil (il / side)
    linarith
  have h2 := Int.floor_le_floor h1
  rw [Int.floor_add_intCast] at h2
  omega

/-- Clusters are in the list of another one only if their towers are at most as far from each other as the overlap in each direction. -/
theorem VCLRebuilt.neighbour_towers (h : VCLRebuilt s ox oy) {k k' : ClusterId} (hk : k.1.1 < s.g.tx) (hk' : k'.1.1 < s.g.tx)
    (hn : k' ∈ s.neighbours k) {p q : P} (hp : p ∈ s.members k) (hq : q ∈ s.members k') :
    k.1.1 ≤ k'.1.1 + s.g.perX ∧ k'.1.1 ≤ k.1.1 + s.g.perX ∧ k.1.2 ≤ k'.1.2 + s.g.perY ∧ k'.1.2 ≤ k.1.2 + s.g.perY := by
  obtain ⟨-, -, -, -, -, -, -, hd⟩ := VCL.mem_between.1 (VCL.mem_neighbours.1 hn).2
  have tow : ∀ {k : ClusterId}, k.1.1 < s.g.tx → ∀ {p}, p ∈ s.members k → ∀ x ∈ vclPositions s.clusterSize s.pos (s.tower k.1) k.2,
      InBox x s.g.haloMin s.g.haloMax ∧ s.g.towerAt x = k.1 := by
    intro k hk p hp x hx
    have ht : p ∈ s.tower k.1 := by
      unfold VCL.members clusterOf at hp
      exact List.mem_of_mem_drop (List.mem_of_mem_take hp)
    obtain ⟨r, hr, rfl⟩ := positions_mem (List.ne_nil_of_mem ht) hx
    refine ⟨(h.placed _ r hr).1, ?_⟩
    exact ((h.mem_tower hk).1 hr).2
  have ne : ∀ {k : ClusterId} {p}, p ∈ s.members k → vclPositions s.clusterSize s.pos (s.tower k.1) k.2 ≠ [] := by
    intro k p hp e
    unfold vclPositions at e
    rw [List.map_eq_nil_iff] at e
    have := vclSlots_reduce s.clusterSize (s.tower k.1) k.2
    rw [e] at this
    unfold VCL.members at hp
    rw [← this] at hp
    cases hp
  obtain ⟨⟨a1, m1, e1⟩, ⟨a2, m2, e2⟩, ⟨a3, m3, e3⟩, ⟨a4, m4, e4⟩⟩ := boundingBox_attained (ne hp)
  obtain ⟨⟨b1, n1, f1⟩, ⟨b2, n2, f2⟩, ⟨b3, n3, f3⟩, ⟨b4, n4, f4⟩⟩ := boundingBox_attained (ne hq)
  unfold boxDistanceSquared VCL.box at hd
  rw [e1, e2, e3, e4, f1, f2, f3, f4] at hd
  have hil := h.ok.ilPos
  have key : ∀ {u v : Rat}, (max 0 (u - v)) ^ 2 ≤ s.g.il * s.g.il → u - v ≤ s.g.il := by
    intro u v huv
    by_contra hc
    rw [not_le] at hc
    rw [max_eq_right (by linarith)] at huv
    nlinarith
  have q1 := sq_nonneg (max 0 (a1.x - b2.x))
  have q2 := sq_nonneg (max 0 (a3.y - b4.y))
  have q4 := sq_nonneg (max 0 (b1.x - a2.x))
  have q5 := sq_nonneg (max 0 (b3.y - a4.y))
  generalize (max 0 ((vclBoundingBox (vclPositions s.clusterSize s.pos (s.tower k.1) k.2)).1.z -
    (vclBoundingBox (vclPositions s.clusterSize s.pos (s.tower k'.1) k'.2)).2.z)) = z1 at hd
  generalize (max 0 ((vclBoundingBox (vclPositions s.clusterSize s.pos (s.tower k'.1) k'.2)).1.z -
    (vclBoundingBox (vclPositions s.clusterSize s.pos (s.tower k.1) k.2)).2.z)) = z2 at hd
  have q3 := sq_nonneg z1
  have q6 := sq_nonneg z2
  have d1 := key (show (max 0 (a1.x - b2.x)) ^ 2 ≤ _ by linarith)
  have d2 := key (show (max 0 (b1.x - a2.x)) ^ 2 ≤ _ by linarith)
  have d3 := key (show (max 0 (a3.y - b4.y)) ^ 2 ≤ _ by linarith)
  have d4 := key (show (max 0 (b3.y - a4.y)) ^ 2 ≤ _ by linarith)
  have shX : ∀ {u v : V3 Rat} {t t' : Nat × Nat}, (InBox u s.g.haloMin s.g.haloMax ∧ s.g.towerAt u = t) →
      (InBox v s.g.haloMin s.g.haloMax ∧ s.g.towerAt v = t') → u.x - v.x ≤ s.g.il → t.1 ≤ t'.1 + s.g.perX := by
    rintro u v t t' ⟨hu, rfl⟩ ⟨hv, rfl⟩ huv
    rw [h.ok.towerAt_eq, h.ok.towerAt_eq]
    exact dimIndex_shift h.ok.sxPos hil hu.1 hv.1 huv
  have shY : ∀ {u v : V3 Rat} {t t' : Nat × Nat}, (InBox u s.g.haloMin s.g.haloMax ∧ s.g.towerAt u = t) →
      (InBox v s.g.haloMin s.g.haloMax ∧ s.g.towerAt v = t') → u.y - v.y ≤ s.g.il → t.2 ≤ t'.2 + s.g.perY := by
    rintro u v t t' ⟨hu, rfl⟩ ⟨hv, rfl⟩ huv
    rw [h.ok.towerAt_eq, h.ok.towerAt_eq]
    exact dimIndex_shift h.ok.syPos hil hu.2.1 hv.2.1 huv
  exact ⟨shX (tow hk hp _ m1) (tow hk' hq _ n2) d1, shX (tow hk' hq _ n1) (tow hk hp _ m2) d2,
    shY (tow hk hp _ m3) (tow hk' hq _ n4) d3, shY (tow hk' hq _ n3) (tow hk hp _ m4) d4⟩

/-- Processing a cluster updates its own particles, and with Newton 3 those of the clusters in its list. -/
theorem VCLRebuilt.written (h : VCLRebuilt s ox oy) {k : ClusterId} (hk : k.1.1 < s.g.tx) {p : P} (hp : p ∈ writtenBy (s.processCluster k)) :
    s.home p = k ∨ (s.newton3 = true ∧ s.home p ∈ s.neighbours k ∧
      k.1.1 ≤ (s.home p).1.1 + s.g.perX ∧ (s.home p).1.1 ≤ k.1.1 + s.g.perX ∧ k.1.2 ≤ (s.home p).1.2 + s.g.perY ∧
      (s.home p).1.2 ≤ k.1.2 + s.g.perY) := by
  obtain ⟨c, hc, hpc⟩ := mem_writtenBy.1 hp
  rw [VCL.processCluster_ops] at hc
  obtain ⟨o, ho, hc⟩ := List.mem_flatMap.1 hc
  obtain ⟨e1, h2⟩ := VCL.mem_opsOf.1 ho
  unfold VCL.op at hc
  rw [e1] at hc
  have hd := h.ok.dims
  split at hc
  · left
    unfold soaSingle at hc
    obtain ⟨t, ht, hc⟩ := List.mem_flatMap.1 hc
    have hm := mem_pairLoop ht
    have m1 := ((h.mem_members hk).1 hm.1).2
    have m2 := ((h.mem_members hk).1 hm.2).2
    have : p = t.1 ∨ p = t.2 := by
      unfold interactCross at hc
      split at hc <;> simp at hc
      · subst hc
        rcases hpc with rfl | ⟨-, rfl⟩
        · exact .inl rfl
        · exact .inr rfl
      · rcases hc with rfl | rfl <;> rcases hpc with rfl | ⟨-, rfl⟩
        · exact .inl rfl
        · exact .inr rfl
        · exact .inr rfl
        · exact .inl rfl
    rcases this with rfl | rfl
    · exact m1
    · exact m2
  · rename_i hne
    have hnb : o.2 ∈ s.neighbours k := by
      rcases h2 with ⟨e, -⟩ | h2
      · exact absurd e.symm hne
      · exact h2
    have l2 : o.2.1.1 < s.g.tx :=
      ((VCLGrid.mem_neighbourTowers (by omega) (by omega)).1 (VCL.mem_neighbours.1 hnb).1).1
    rw [soaPair_eq s.newton3 false _ _ (.inr rfl)] at hc
    obtain ⟨t, ht, hc⟩ := List.mem_flatMap.1 hc
    have hm := mem_crossLoop ht
    have m1 := ((h.mem_members hk).1 hm.1).2
    have m2 := ((h.mem_members l2).1 hm.2).2
    have hto := h.neighbour_towers hk l2 hnb hm.1 hm.2
    have : p = t.1 ∨ (s.newton3 = true ∧ p = t.2) := by
      unfold interactCross at hc
      split at hc <;> simp at hc
      · rename_i hn
        subst hc
        rcases hpc with rfl | ⟨-, rfl⟩
        · exact .inl rfl
        · exact .inr ⟨hn, rfl⟩
      · subst hc
        rcases hpc with rfl | ⟨hx, rfl⟩
        · exact .inl rfl
        · cases hx
    rcases this with rfl | ⟨hn, rfl⟩
    · exact .inl m1
    · right
      rw [m2]
      exact ⟨hn, hnb, hto⟩

/-- Forward neighbours, in cells of `per` × `per` towers. -/
theorem VCLGrid.forward_cells {g : VCLGrid} (hper : 0 < g.per) {t t' : Nat × Nat} (h1 : t.1 < g.tx) (h1' : t'.1 < g.tx)
    (x1 : t.1 ≤ t'.1 + g.per) (x2 : t'.1 ≤ t.1 + g.per) (y1 : t.2 ≤ t'.2 + g.per) (y2 : t'.2 ≤ t.2 + g.per)
    (hf : g.isForward t t' = true) :
    t.1 / g.per ≤ t'.1 / g.per + 1 ∧ t'.1 / g.per ≤ t.1 / g.per + 1 ∧
    ((t'.2 / g.per = t.2 / g.per ∧ t.1 / g.per ≤ t'.1 / g.per) ∨ t'.2 / g.per = t.2 / g.per + 1) := by
  have shift : ∀ {u v : Nat}, u ≤ v + g.per → u / g.per ≤ v / g.per + 1 := by
    intro u v huv
    rw [← Nat.add_div_right _ hper]
    exact Nat.div_le_div_right huv
  have a1 := shift x1
  have a2 := shift x2
  have a3 := shift y1
  have a4 := shift y2
  refine ⟨a1, a2, ?_⟩
  have hle : g.interactionCell t ≤ g.interactionCell t' := by
    unfold VCLGrid.isForward at hf
    by_contra hx
    rw [if_neg (by omega), if_pos (by omega)] at hf
    cases hf
  unfold VCLGrid.interactionCell at hle
  have w1 := div_lt_ceil hper h1
  have w2 := div_lt_ceil hper h1'
  generalize ⌈(g.tx : Rat) / g.per⌉.toNat = W at *
  generalize t.1 / g.per = X at *
  generalize t'.1 / g.per = X' at *
  generalize t.2 / g.per = Y at *
  generalize t'.2 / g.per = Y' at *
  have hY : Y ≤ Y' := by
    by_contra hx
    have : W * (Y' + 1) ≤ W * Y := Nat.mul_le_mul_left _ (by omega)
    rw [Nat.mul_add] at this
    omega
  rcases Nat.lt_or_ge Y Y' with hlt | hge
  · exact .inr (by omega)
  · have : Y' = Y := by omega
    subst this
    exact .inl ⟨rfl, by omega⟩

/-- Towers more than twice the overlap apart along one axis. -/
theorem vcl_layers_disjoint (h : VCLRebuilt s ox oy) {B B' : List (V3 Nat)} (hB : ∀ b ∈ B, InGrid b (vclSelectorDims s.g))
    (hB' : ∀ b ∈ B', InGrid b (vclSelectorDims s.g))
    (far : ∀ b ∈ B, ∀ b' ∈ B', (doubleOverlap (overlapOf s.g.il (vclSelectorLength s.g)).toNat).get (longestAxis (vclSelectorDims s.g)) <
      axisDist (b.get (longestAxis (vclSelectorDims s.g))) (b'.get (longestAxis (vclSelectorDims s.g))))
    (p : P) (hp : p ∈ writtenBy ((B.flatMap fun b => s.clustersOf (b.x, b.y)).flatMap s.processCluster)) :
    p ∉ writtenBy ((B'.flatMap fun b => s.clustersOf (b.x, b.y)).flatMap s.processCluster) := by
  have key : ∀ {B : List (V3 Nat)}, (∀ b ∈ B, InGrid b (vclSelectorDims s.g)) →
      p ∈ writtenBy ((B.flatMap fun b => s.clustersOf (b.x, b.y)).flatMap s.processCluster) →
      ∃ b ∈ B, b.x ≤ (s.home p).1.1 + s.g.perX ∧ (s.home p).1.1 ≤ b.x + s.g.perX ∧ b.y ≤ (s.home p).1.2 + s.g.perY ∧
        (s.home p).1.2 ≤ b.y + s.g.perY := by
    intro B hB hp
    obtain ⟨c, hc, hpc⟩ := mem_writtenBy.1 hp
    obtain ⟨k, hk, hc⟩ := List.mem_flatMap.1 hc
    obtain ⟨b, hb, hk⟩ := List.mem_flatMap.1 hk
    obtain ⟨n, -, rfl⟩ := List.mem_map.1 hk
    have hw := h.written (k := ((b.x, b.y), n)) (hB b hb).1 (mem_writtenBy.2 ⟨c, hc, hpc⟩)
    refine ⟨b, hb, ?_⟩
    rcases hw with e | ⟨-, -, hw⟩
    · rw [e]; simp
    · exact hw
  intro hp'
  obtain ⟨b, hb, x1, x2, y1, y2⟩ := key hB hp
  obtain ⟨b', hb', x3, x4, y3, y4⟩ := key hB' hp'
  have hf := far b hb b' hb'
  rw [doubleOverlap_get] at hf
  have hd := h.ok.dims
  have hax : longestAxis (vclSelectorDims s.g) = 0 ∨ longestAxis (vclSelectorDims s.g) = 1 := by
    unfold longestAxis vclSelectorDims
    have hc : ¬(s.g.tx ≤ 1 ∧ s.g.ty ≤ 1) := by omega
    simp only [hc, if_false]
    split <;> simp
  unfold VCLGrid.perX at x1 x2 x3 x4
  unfold VCLGrid.perY at y1 y2 y3 y4
  unfold axisDist at hf
  rcases hax with e | e <;> rw [e] at hf <;>
    (simp [overlapOf, V3.toNat, V3.get, vclSelectorLength] at hf; split at hf <;> omega)

/-- Slices of one colour of the colour based sliced traversal. -/
theorem slicedC02_far {dims ov2 : V3 Nat} (hl1 : ov2.get (longestAxis dims) ≤ dims.get (longestAxis dims)) (hl2 : 0 < ov2.get (longestAxis dims))
    {phase : List (List (V3 Nat))} (hphase : phase ∈ slicedC02Packs false dims ov2
      (sliceThickness false (dims.get (longestAxis dims)) (ov2.get (longestAxis dims)) (ov2.get (longestAxis dims))))
    (n m : Nat) (hn : n < phase.length) (hm : m < phase.length) (hnm : n ≠ m) :
    ∀ b ∈ phase[n], ∀ b' ∈ phase[m], ov2.get (longestAxis dims) < axisDist (b.get (longestAxis dims)) (b'.get (longestAxis dims)) := by
  have hS := sliceThickness_slices (forward := false) (ov := ov2.get (longestAxis dims)) hl2 hl1
  generalize sliceThickness false (dims.get (longestAxis dims)) (ov2.get (longestAxis dims)) (ov2.get (longestAxis dims)) = thick at *
  unfold slicedC02Packs at hphase
  simp only [List.mem_map] at hphase
  obtain ⟨off, -, rfl⟩ := hphase
  simp only [List.length_map] at hn hm
  intro b hb b' hb'
  simp only [List.getElem_map, List.mem_flatMap] at hb hb'
  obtain ⟨d, hd, hb⟩ := hb
  obtain ⟨e, he, hb'⟩ := hb'
  have hss := nodup_getElem_ne (nodup_forUp off thick.length 2) hn hm hnm
  have hs1 := List.getElem_mem hn
  have hs2 := List.getElem_mem hm
  generalize (forUp off thick.length 2)[n] = s at *
  generalize (forUp off thick.length 2)[m] = s' at *
  rw [mem_forUp (by omega)] at hs1 hs2
  unfold sliceLayers at hd he
  rw [List.mem_map] at hd he
  obtain ⟨o, ho, rfl⟩ := hd
  obtain ⟨o', ho', rfl⟩ := he
  rw [List.mem_range] at ho ho'
  rw [layerBases_false, mem_layerBases] at hb hb'
  rw [hb.1, hb'.1]
  have far : ∀ s s' o o', s + 2 ≤ s' → s' < thick.length → o < thick.getD s 0 →
      sliceStart thick s + o + ov2.get (longestAxis dims) < sliceStart thick s' + o' := by
    intro s s' o o' h1 h2 h3
    have e1 := sliceStart_succ (thick := thick) (s := s) (by omega)
    have e2 := sliceStart_succ (thick := thick) (s := s + 1) (by omega)
    have e3 := sliceStart_mono (thick := thick) (s := s + 1 + 1) (s' := s') (by omega) (by omega)
    have e4 := hS.thick_ge (s := s + 1) (by omega)
    omega
  unfold axisDist
  rcases Nat.lt_or_gt_of_ne hss with h | h
  · have := far s s' o o' (by omega) (by omega) ho
    rw [if_pos (by omega)]
    omega
  · have := far s' s o' o (by omega) (by omega) ho'
    rw [if_neg (by omega)]
    omega

omit [DecidableEq P] in
private theorem written_cluster {l : List ClusterId} {p : P} (hp : p ∈ writtenBy (l.flatMap s.processCluster)) :
    ∃ k ∈ l, p ∈ writtenBy (s.processCluster k) := by
  obtain ⟨c, hc, hpc⟩ := mem_writtenBy.1 hp
  obtain ⟨k, hk, hc⟩ := List.mem_flatMap.1 hc
  exact ⟨k, hk, mem_writtenBy.2 ⟨c, hc, hpc⟩⟩

theorem vcl_race_free (h : VCLRebuilt s ox oy) (info : VCLGrid) (t : VCLTraversal) (hlock : s.newton3 = true → ∀ thick, t ≠ .sliced thick)
    (ht : t.Admissible s info) (phase : List (List ClusterId)) (hphase : phase ∈ s.packages info t) (n m : Nat) (hn : n < phase.length)
    (hm : m < phase.length) (hnm : n ≠ m) (p : P) (hp : p ∈ writtenBy (phase[n].flatMap s.processCluster)) :
    p ∉ writtenBy (phase[m].flatMap s.processCluster) := by
  have hv := vcl_visits h info t ht
  have hin : ∀ k (hk : k < phase.length), ∀ c ∈ phase[k], c.1.1 < s.g.tx := by
    intro k hk c hc
    exact ((hv.mem c).1 (List.mem_flatten.2 ⟨_, List.mem_flatten.2 ⟨phase, hphase, List.getElem_mem hk⟩, hc⟩)).1
  cases hN : s.newton3 with
  | false =>
    intro hp'
    obtain ⟨k, hk, hp⟩ := written_cluster hp
    obtain ⟨k', hk', hp'⟩ := written_cluster hp'
    have e : k = k' := by
      rcases h.written (hin n hn k hk) hp with e | ⟨hx, -⟩
      · rcases h.written (hin m hm k' hk') hp' with e' | ⟨hx, -⟩
        · exact e.symm.trans e'
        · rw [hN] at hx; cases hx
      · rw [hN] at hx; cases hx
    subst e
    have hnd := (List.nodup_flatten.1 hv.nodup).2
    have hph : phase.Pairwise List.Disjoint := by
      have := hnd
      rw [List.pairwise_flatten] at this
      exact this.1 phase hphase
    rw [List.pairwise_iff_getElem] at hph
    rcases Nat.lt_or_gt_of_ne hnm with c | c
    · exact hph n m hn hm c hk hk'
    · exact hph m n hm hn c hk' hk
  | true =>
    cases t with
    | clusterIteration => rw [show s.newton3 = false from ht] at hN; cases hN
    | c01Balanced ranges => rw [ht.1] at hN; cases hN
    | sliced thick => exact absurd rfl (hlock hN thick)
    | slicedC02 =>
      have ht : info = s.g := ht
      subst ht
      obtain ⟨hl1, hl2⟩ := h.ok.longest
      unfold VCL.packages at hphase
      obtain ⟨B, hB, rfl⟩ := List.mem_map.1 hphase
      simp only [List.length_map] at hn hm
      simp only [List.getElem_map] at hp ⊢
      have hgrid : ∀ k (hk : k < B.length), ∀ b ∈ B[k], InGrid b (vclSelectorDims s.g) := by
        intro k hk b hb
        exact (((vlcBases_facts_of hl1 hl2 .slicedC02 s.newton3 trivial).2 b).1
          (List.mem_flatten.2 ⟨_, List.mem_flatten.2 ⟨B, hB, List.getElem_mem hk⟩, hb⟩)).1
      exact vcl_layers_disjoint h (hgrid n hn) (hgrid m hm) (slicedC02_far (by omega) hl2 hB n m hn hm hnm) p hp
    | c06 =>
      unfold VCL.packages at hphase
      obtain ⟨colour, hcol, rfl⟩ := List.mem_map.1 hphase
      simp only [List.length_map] at hn hm
      simp only [List.getElem_map] at hp ⊢
      have hper := h.ok.per_pos
      have hd := h.ok.dims
      have key : ∀ c : V3 Nat, p ∈ writtenBy (((vclC06Towers s.g c).flatMap s.clustersOf).flatMap s.processCluster) →
          c.x ≤ (s.home p).1.1 / s.g.per + 1 ∧ (s.home p).1.1 / s.g.per ≤ c.x + 1 ∧
          (((s.home p).1.2 / s.g.per = c.y ∧ c.x ≤ (s.home p).1.1 / s.g.per) ∨ (s.home p).1.2 / s.g.per = c.y + 1) := by
        intro c hp
        obtain ⟨k, hk, hp⟩ := written_cluster hp
        obtain ⟨t, htow, hk⟩ := List.mem_flatMap.1 hk
        obtain ⟨i, -, rfl⟩ := List.mem_map.1 hk
        obtain ⟨e1, e2, l1, l2⟩ := (mem_vclC06Towers hper).1 htow
        rcases h.written (k := (t, i)) l1 hp with e | ⟨-, hnb, -⟩
        · rw [e]
          simp only
          rw [e1, e2]
          omega
        · have hnt := (VCLGrid.mem_neighbourTowers (by omega) (by omega)).1 (VCL.mem_neighbours.1 hnb).1
          rw [hN] at hnt
          simp only [forall_const] at hnt
          obtain ⟨q1, q2, q3, q4, q5, q6, q7, -⟩ := hnt
          have := VCLGrid.forward_cells hper l1 q1 q3 q4 q5 q6 q7
          rw [e1, e2] at this
          exact this
      intro hp'
      have k1 := key _ hp
      have k2 := key _ hp'
      have hne := nodup_getElem_ne ((List.nodup_flatten.1 (nodup_colorTraversal _ _ _)).1 colour hcol) hn hm hnm
      obtain ⟨f1, f2, f3⟩ := C06_same_color_far_apart _ _ _ colour hcol colour[n] colour[m] (List.getElem_mem hn) (List.getElem_mem hm)
      have z : ∀ k (hk : k < colour.length), colour[k].z < 1 := by
        intro k hk
        exact ((mem_colorTraversal (by simp) (by simp) (by simp)).1 (List.mem_flatten.2 ⟨colour, hcol, List.getElem_mem hk⟩)).2.2.2
      have z1 := z n hn
      have z2 := z m hm
      apply hne
      generalize colour[n] = a at *
      generalize colour[m] = b at *
      rcases a with ⟨ax, ay, az⟩
      rcases b with ⟨bx, by', bz⟩
      simp only [V3.mk.injEq] at *
      omega

variable {cbrt : Rat → Rat} {bMin bMax : V3 Rat} {il : Rat} {old : List (List P)} {toAdd : List P}

omit [DecidableEq P] in
private theorem nothing_written [DecidableEq P] (he : s.towers.flatten = []) (l : List ClusterId) (p : P) :
    p ∉ writtenBy (l.flatMap s.processCluster) := by
  intro hp
  obtain ⟨k, -, hp⟩ := written_cluster hp
  rw [processCluster_nil he] at hp
  cases hp

/-- C67. In every phase, packages that may run at the same time update disjoint sets of particles (for the lock based traversals with
Newton 3 see below). Missing: sliced traversals between rebuilds when the estimated grid is another one (`C67_violated`). -/
theorem C67_race_free_partial (hi : VCLInput cbrt bMin bMax il s.clusterSize s.pos s.own old toAdd)
    (h : VCLRebuiltFrom cbrt bMin bMax il old toAdd s) (info : VCLGrid) (t : VCLTraversal)
    (hlock : s.newton3 = true → ∀ thick, t ≠ .sliced thick) (ht : t.Admissible s info) (phase : List (List ClusterId))
    (hphase : phase ∈ s.packages info t) (n m : Nat) (hn : n < phase.length) (hm : m < phase.length) (hnm : n ≠ m) (p : P)
    (hp : p ∈ writtenBy (phase[n].flatMap s.processCluster)) : p ∉ writtenBy (phase[m].flatMap s.processCluster) := by
  rcases h.cases hi with he | ⟨-, -, -, ox, oy, hr⟩
  · exact absurd hp (nothing_written he _ p)
  · exact vcl_race_free hr info t hlock ht phase hphase n m hn hm hnm p hp

/-- The same for `vcl_sliced` and `vcl_sliced_balanced`: in every state reachable with the locks, the layers of towers two slices are
processing update disjoint sets of particles. Missing: as above. -/
theorem C67_sliced_race_free_partial (hi : VCLInput cbrt bMin bMax il s.clusterSize s.pos s.own old toAdd)
    (h : VCLRebuiltFrom cbrt bMin bMax il old toAdd s) (thick : List Nat) (ht : (VCLTraversal.sliced thick).Admissible s s.g)
    (σ : SlicedState) (hr : SlicedReach ((doubleOverlap (overlapOf s.g.il (vclSelectorLength s.g)).toNat).get
      (longestAxis (vclSelectorDims s.g))) thick σ)
    (i j d e : Nat) (r r' : List SliceAct) (hne : i ≠ j) (h1 : σ.rest i = .process d :: r) (h2 : σ.rest j = .process e :: r') (p : P)
    (hp : p ∈ writtenBy (((layerBases false (vclSelectorDims s.g) (doubleOverlap (overlapOf s.g.il (vclSelectorLength s.g)).toNat) d).flatMap
      fun b => s.clustersOf (b.x, b.y)).flatMap s.processCluster)) :
    p ∉ writtenBy (((layerBases false (vclSelectorDims s.g) (doubleOverlap (overlapOf s.g.il (vclSelectorLength s.g)).toNat) e).flatMap
      fun b => s.clustersOf (b.x, b.y)).flatMap s.processCluster) := by
  rcases h.cases hi with he | ⟨-, -, -, ox, oy, hb⟩
  · exact absurd hp (nothing_written he _ p)
  obtain ⟨hl1, hl2⟩ := hb.ok.longest
  have ht := ht.2
  have hg := (LockSlices.slices ht hl1).good
  have hinv := slicedInv_reach hg hr
  have hsum := (LockSlices.slices ht hl1).sum_false
  have inRange : ∀ {s d r}, σ.rest s = .process d :: r → d < thick.sum := by
    intro s d r h
    obtain ⟨hs, p⟩ := hinv.position hg h
    rcases p with ⟨-, k, -, e, -⟩ | ⟨-, k, -, -, e, -⟩ | ⟨k, hk, e, -⟩ | ⟨m, e, hm⟩
    · cases e
    · cases e
    · cases e
      have h1 := sliceStart_succ hs
      have h2 := sliceStart_mono (thick := thick) (s := s + 1) (s' := thick.length) (by omega) (le_refl _)
      have h3 : sliceStart thick thick.length = thick.sum := by simp [sliceStart]
      omega
    · cases e
  have hd := inRange h1
  have he := inRange h2
  rw [hsum] at hd he
  have hin : ∀ d, d < (vclSelectorDims s.g).get (longestAxis (vclSelectorDims s.g)) → ∀ b ∈ layerBases false (vclSelectorDims s.g)
      (doubleOverlap (overlapOf s.g.il (vclSelectorLength s.g)).toNat) d, InGrid b (vclSelectorDims s.g) := by
    intro d hd b hb
    exact ((layers_false _ _ _ rfl).2 b).1 (List.mem_flatMap.2 ⟨d, List.mem_range.2 hd, hb⟩)
  refine vcl_layers_disjoint hb (hin d hd) (hin e he) ?_ p hp
  intro b hb b' hb'
  rw [layerBases_false, mem_layerBases] at hb hb'
  rw [hb.1, hb'.1]
  exact C14_lock_mutual_exclusion false _ _ thick hl1 ht σ hr i j d e r r' hne h1 h2

end

/-! ### The violation -/

/-- Nine particles in the box [0, 4) × [0, 1) × [0, 2); 0 and 2 are halo particles next to the owned particle 1, 8 is going to be deleted. -/
def exRace : List Particle :=
  [⟨0, ⟨-1/10, -1/100, 1⟩, .halo⟩, ⟨1, ⟨7/10, 1/100, 1⟩, .owned⟩, ⟨2, ⟨33/20, -1/100, 1⟩, .halo⟩, ⟨3, ⟨31/10, 1/2, 3/10⟩, .owned⟩,
   ⟨4, ⟨32/10, 1/2, 4/10⟩, .owned⟩, ⟨5, ⟨33/10, 1/2, 5/10⟩, .owned⟩, ⟨6, ⟨34/10, 1/2, 6/10⟩, .owned⟩, ⟨7, ⟨35/10, 1/2, 7/10⟩, .owned⟩,
   ⟨8, ⟨36/10, 1/2, 8/10⟩, .owned⟩]

def exRaceVCL (cbrt : Rat → Rat) : VCL Particle :=
  let g := vclEstimate cbrt ⟨0, 0, 0⟩ ⟨4, 1, 2⟩ 1 1 9
  ⟨g, 1, vclRebuild g Particle.pos Particle.own [] exRace, Particle.pos, Particle.own, true⟩

private def exRaceGrid : VCLGrid := ⟨⟨0, 0, 0⟩, ⟨4, 1, 2⟩, 1, 4/5, 1/2, 9, 6⟩
private def exRaceInfo : VCLGrid := ⟨⟨0, 0, 0⟩, ⟨4, 1, 2⟩, 1, 1, 1, 6, 3⟩
private def exRaceTowers : List (List Particle) := vclRebuild exRaceGrid Particle.pos Particle.own [] exRace
private def exRaceState : VCL Particle := ⟨exRaceGrid, 1, exRaceTowers, Particle.pos, Particle.own, true⟩

private theorem exRace_grid (cbrt : Rat → Rat) (h1 : 4/5 ≤ cbrt (8/9)) (h2 : cbrt (8/9) < 1) :
    vclEstimate cbrt ⟨0, 0, 0⟩ ⟨4, 1, 2⟩ 1 1 9 = exRaceGrid := by
  have hp : (0 : Rat) < cbrt (8/9) := by linarith
  have e1 : ⌈(4 : Rat) / cbrt (8/9)⌉ = 5 := by
    rw [Int.ceil_eq_iff]
    constructor
    · rw [lt_div_iff₀ hp]; push_cast; linarith
    · rw [div_le_iff₀ hp]; push_cast; linarith
  have e2 : ⌈(1 : Rat) / cbrt (8/9)⌉ = 2 := by
    rw [Int.ceil_eq_iff]
    constructor
    · rw [lt_div_iff₀ hp]; push_cast; linarith
    · rw [div_le_iff₀ hp]; push_cast; linarith
  have e3 : ⌈(5/4 : Rat)⌉ = 2 := Int.ceil_eq_iff.2 ⟨by norm_num, by norm_num⟩
  have e4 : ⌈(2 : Rat)⌉ = 2 := Int.ceil_eq_iff.2 ⟨by norm_num, by norm_num⟩
  rw [one_div] at e2
  unfold vclEstimate exRaceGrid
  norm_num
  norm_num [e1, e2, e3, e4]
  decide

private theorem exRace_info (cbrt : Rat → Rat) (h : cbrt 1 = 1) : vclEstimate cbrt ⟨0, 0, 0⟩ ⟨4, 1, 2⟩ 1 1 8 = exRaceInfo := by
  have e1 : ⌈(4 : Rat)⌉ = 4 := Int.ceil_eq_iff.2 ⟨by norm_num, by norm_num⟩
  unfold vclEstimate exRaceInfo
  norm_num
  rw [h]
  norm_num [e1]
  decide

private theorem exRace_facts : exRaceTowers.flatten.countP (fun p => decide (exNineOwn p ≠ .dummy)) = 8 ∧
    (∀ t ∈ exRaceTowers, t.Pairwise fun p q => p.pos.z ≤ q.pos.z) ∧
    (∀ p ∈ exRaceTowers.flatten, 4 * distSq p.pos p.pos ≤ (1/10 : Rat) * (1/10)) ∧
    (∀ p ∈ exRaceTowers.flatten, exNineOwn p = .owned → p.own = .owned ∧ InBox p.pos ⟨0, 0, 0⟩ ⟨4, 1, 2⟩) ∧
    exRaceGrid.Even ∧ ((1, 1), 0) ∈ exRaceState.clustersOf (1, 1) ∧ ((4, 1), 0) ∈ exRaceState.clustersOf (4, 1) ∧
    (⟨1, ⟨7/10, 1/100, 1⟩, .owned⟩ : Particle) ∈ writtenBy (exRaceState.processCluster ((1, 1), 0)) ∧
    (⟨1, ⟨7/10, 1/100, 1⟩, .owned⟩ : Particle) ∈ writtenBy (exRaceState.processCluster ((4, 1), 0)) := by
  unfold VCLGrid.Even
  decide +kernel

/-- C67 is violated between rebuilds. The towers were built for nine particles, nothing has moved, one particle was deleted. `vcl_sliced_c02` with
Newton 3 is made for the grid of eight particles, whose overlap is too small: two slices that are processed at the same time update
the same particle. (`4/5 ≤ cbrt (8/9) < 1` and `cbrt 1 = 1` hold of the cube root.) -/
theorem C67_violated (cbrt : Rat → Rat) (hcbrt : ∀ x, 0 < x → 0 < cbrt x) (h1 : 4/5 ≤ cbrt (8/9)) (h2 : cbrt (8/9) < 1) (h3 : cbrt 1 = 1) :
    let s := exRaceVCL cbrt
    let info := vclInfo cbrt ⟨0, 0, 0⟩ ⟨4, 1, 2⟩ (9/10 + 1/10) exNineOwn s
    VCLInput cbrt ⟨0, 0, 0⟩ ⟨4, 1, 2⟩ (9/10 + 1/10) s.clusterSize s.pos s.own [] exRace ∧
    VCLRebuiltFrom cbrt ⟨0, 0, 0⟩ ⟨4, 1, 2⟩ (9/10 + 1/10) [] exRace s ∧ s.g.Even ∧
    ListsKept ⟨0, 0, 0⟩ ⟨4, 1, 2⟩ (1/10) false s.pos Particle.pos s.own exNineOwn s.towers.flatten ∧
    ∃ phase ∈ s.packages info .slicedC02, ∃ (n m : Nat) (hn : n < phase.length) (hm : m < phase.length), n ≠ m ∧
      ∃ p, p ∈ writtenBy (phase[n].flatMap s.processCluster) ∧ p ∈ writtenBy (phase[m].flatMap s.processCluster) := by
  intro s info
  have eil : (9/10 + 1/10 : Rat) = 1 := by norm_num
  have es : s = exRaceState := by
    show exRaceVCL cbrt = _
    unfold exRaceVCL exRaceState exRaceTowers
    simp only
    rw [exRace_grid cbrt h1 h2]
  obtain ⟨f1, f2, f3, f4, f5, f6, f7, f8, f9⟩ := exRace_facts
  have einfo : info = exRaceInfo := by
    show vclInfo _ _ _ _ _ s = _
    unfold vclInfo
    rw [eil, es]
    simp only [exRaceState]
    rw [f1, exRace_info cbrt h3]
  have hinput : VCLInput cbrt ⟨0, 0, 0⟩ ⟨4, 1, 2⟩ (9/10 + 1/10) s.clusterSize s.pos s.own [] exRace := by
    rw [eil]
    show VCLInput cbrt ⟨0, 0, 0⟩ ⟨4, 1, 2⟩ 1 1 Particle.pos Particle.own [] exRace
    exact ⟨hcbrt, by norm_num, by norm_num, by norm_num, by norm_num, by norm_num, by decide +kernel, by decide +kernel, by decide +kernel,
      by decide +kernel⟩
  have hfrom : VCLRebuiltFrom cbrt ⟨0, 0, 0⟩ ⟨4, 1, 2⟩ (9/10 + 1/10) [] exRace s := by
    rw [eil]
    refine ⟨rfl, vclRebuild_length _ _ _ _ _, fun i => List.Perm.refl _, ?_⟩
    rw [es]
    exact f2
  have hkept : ListsKept ⟨0, 0, 0⟩ ⟨4, 1, 2⟩ (1/10) false s.pos Particle.pos s.own exNineOwn s.towers.flatten := by
    rw [es]
    refine ⟨f3, f4, ?_⟩
    intro _ p _ hp
    simp only [exRaceState] at hp
    unfold exNineOwn
    split
    · rfl
    · exact hp
  refine ⟨hinput, hfrom, by rw [es]; exact f5, hkept, ?_⟩
  have hth : sliceThickness false 6 2 2 = [2, 2, 2] := by decide +kernel
  have hov : doubleOverlap (overlapOf 1 (vclSelectorLength exRaceInfo)).toNat = ⟨2, 2, 2⟩ := by decide +kernel
  have hax : longestAxis (vclSelectorDims exRaceInfo) = 0 := by decide
  have hmx : mediumAxis (vclSelectorDims exRaceInfo) = 1 := by decide
  have hsx : shortestAxis (vclSelectorDims exRaceInfo) = 2 := by decide
  have hfor : forUp 0 3 2 = [0, 2] := by
    unfold forUp; simp; unfold forUp; simp; unfold forUp; simp
  have hpk : s.packages info .slicedC02 = (slicedC02Packs false (vclSelectorDims exRaceInfo) ⟨2, 2, 2⟩ [2, 2, 2]).map fun phase =>
      phase.map fun slice => slice.flatMap fun b => exRaceState.clustersOf (b.x, b.y) := by
    rw [einfo, es]
    unfold VCL.packages VLCTraversal.bases
    simp only
    rw [show exRaceState.g.il = 1 from rfl, hov, hax]
    show List.map _ (slicedC02Packs false (vclSelectorDims exRaceInfo) ⟨2, 2, 2⟩ (sliceThickness false 6 2 2)) = _
    rw [hth]
  have hfirst : ((forUp 0 3 2).map fun slice => (sliceLayers [2, 2, 2] slice).flatMap (layerBases false (vclSelectorDims exRaceInfo) ⟨2, 2, 2⟩)) ∈
      slicedC02Packs false (vclSelectorDims exRaceInfo) ⟨2, 2, 2⟩ [2, 2, 2] := by
    unfold slicedC02Packs
    exact List.mem_cons_self
  rw [hfor] at hfirst
  have hbase : ∀ {x : Nat}, (⟨x, 1, 0⟩ : V3 Nat) ∈ layerBases false (vclSelectorDims exRaceInfo) ⟨2, 2, 2⟩ x := by
    intro x
    rw [layerBases_false, mem_layerBases, hax, hmx, hsx]
    exact ⟨rfl, (by decide : 1 < 3 - 0), (by decide : 0 < 1 - 0)⟩
  rw [hpk, es]
  refine ⟨_, List.mem_map.2 ⟨_, hfirst, rfl⟩, 0, 1, by simp, by simp, by decide, ⟨1, ⟨7/10, 1/100, 1⟩, .owned⟩, ?_, ?_⟩
  · simp only [List.map_cons, List.map_nil, List.getElem_cons_zero]
    obtain ⟨c, hc, hpc⟩ := mem_writtenBy.1 f8
    refine mem_writtenBy.2 ⟨c, List.mem_flatMap.2 ⟨_, List.mem_flatMap.2 ⟨⟨1, 1, 0⟩, List.mem_flatMap.2 ⟨1, by decide, hbase⟩, f6⟩, hc⟩, hpc⟩
  · simp only [List.map_cons, List.map_nil, List.getElem_cons_zero, List.getElem_cons_succ]
    obtain ⟨c, hc, hpc⟩ := mem_writtenBy.1 f9
    refine mem_writtenBy.2 ⟨c, List.mem_flatMap.2 ⟨_, List.mem_flatMap.2 ⟨⟨4, 1, 0⟩, List.mem_flatMap.2 ⟨4, by decide, hbase⟩, f7⟩, hc⟩, hpc⟩

/-- The hypotheses of the race freedom theorems are met at the rebuild of this very case, with `vcl_c06` and `vcl_sliced_c02`, and the cluster of
tower (1, 1) does update a particle of another cluster. -/
example : VCLRebuiltFrom (fun _ => 4/5) ⟨0, 0, 0⟩ ⟨4, 1, 2⟩ 1 [] exRace exRaceState ∧
    VCLInput (fun _ => 4/5) ⟨0, 0, 0⟩ ⟨4, 1, 2⟩ 1 exRaceState.clusterSize exRaceState.pos exRaceState.own [] exRace ∧
    VCLTraversal.c06.Admissible exRaceState exRaceGrid ∧ VCLTraversal.slicedC02.Admissible exRaceState exRaceGrid ∧
    (⟨1, ⟨7/10, 1/100, 1⟩, .owned⟩ : Particle) ∈ writtenBy (exRaceState.processCluster ((1, 1), 0)) := by
  obtain ⟨f1, f2, f3, f4, f5, f6, f7, f8, f9⟩ := exRace_facts
  refine ⟨⟨?_, vclRebuild_length _ _ _ _ _, fun i => List.Perm.refl _, f2⟩, ?_, trivial, rfl, f8⟩
  · exact (exRace_grid (fun _ => 4/5) (by norm_num) (by norm_num)).symm
  · show VCLInput (fun _ => 4/5) ⟨0, 0, 0⟩ ⟨4, 1, 2⟩ 1 1 Particle.pos Particle.own [] exRace
    exact ⟨fun _ _ => by norm_num, by norm_num, by norm_num, by norm_num, by norm_num, by norm_num, by decide +kernel, by decide +kernel,
      by decide +kernel, by decide +kernel⟩

end Verif
