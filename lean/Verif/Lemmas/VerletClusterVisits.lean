import Verif.Lemmas.VerletClusterPairs
import Verif.Props.C68
import Verif.Props.C60
import Verif.Lemmas.LCC04
import Verif.Lemmas.VerletListsCells
/-! The clusters every traversal of VerletClusterLists processes. -/
namespace Verif
open Spec

/-- When a traversal may be used (`isApplicable`), and what its parameters are: the ranges are those of `fillClusterRanges`, the slices those of
one of the two ways to slice. The sliced traversals were made for the grid of the rebuild. -/
def VCLTraversal.Admissible {P : Type} (s : VCL P) (info : VCLGrid) : VCLTraversal → Prop
  | .clusterIteration => s.newton3 = false
  | .c01Balanced ranges => s.newton3 = false ∧
      ∃ perThread numThreads old, 0 < numThreads ∧ ranges = fillClusterRanges perThread numThreads old s.ownedClusters
  | .c06 => True
  | .sliced thick => info = s.g ∧ (VLCTraversal.sliced thick).Applicable s.newton3 (vclSelectorDims info) (vclSelectorLength info) s.g.il
  | .slicedC02 => info = s.g

section
variable {P : Type} [DecidableEq P] {s : VCL P} {ox oy : Nat}

theorem nested_flatMap {X Y : Type} (B : List (List (List X))) (f : X → List Y) :
    (B.map fun phase => phase.map fun slice => slice.flatMap f).flatten.flatten = B.flatten.flatten.flatMap f := by
  rw [flatten_flatten_map]
  induction B with
  | nil => rfl
  | cons phase B ih =>
    rw [List.flatMap_cons, ih, List.flatten_cons, List.flatten_append, List.flatMap_append]
    congr 1
    clear ih
    induction phase with
    | nil => rfl
    | cons slice phase ih => rw [List.map_cons, List.flatten_cons, ih, List.flatten_cons, List.flatMap_append]

omit [DecidableEq P] in
theorem visits_of_towers {ts : List (Nat × Nat)} (hnd : ts.Nodup) (hm : ∀ t, t ∈ ts ↔ t.1 < s.g.tx ∧ t.2 < s.g.ty) :
    VisitsAll s (ts.flatMap s.clustersOf) := by
  constructor
  · rw [List.nodup_flatMap]
    refine ⟨fun t _ => ?_, hnd.imp ?_⟩
    · unfold VCL.clustersOf
      refine List.Nodup.map (fun a b h => (Prod.mk.inj h).2) ?_
      unfold vclRange
      split
      · exact List.nodup_range
      · exact List.nodup_range'
    · intro t t' hne k h1 h2
      unfold VCL.clustersOf at h1 h2
      obtain ⟨_, -, rfl⟩ := List.mem_map.1 h1
      obtain ⟨_, -, e⟩ := List.mem_map.1 h2
      exact hne (Prod.mk.inj e).1.symm
  · intro k
    rw [List.mem_flatMap]
    unfold VCL.clustersOf
    constructor
    · rintro ⟨t, ht, h⟩
      obtain ⟨a, ha, rfl⟩ := List.mem_map.1 h
      have := (hm t).1 ht
      exact ⟨this.1, this.2, ha⟩
    · rintro ⟨h1, h2, h3⟩
      exact ⟨k.1, (hm k.1).2 ⟨h1, h2⟩, List.mem_map.2 ⟨k.2, h3, rfl⟩⟩

theorem mem_vclC06Towers {g : VCLGrid} (hp : 0 < g.per) {c : V3 Nat} {t : Nat × Nat} :
    t ∈ vclC06Towers g c ↔ t.1 / g.per = c.x ∧ t.2 / g.per = c.y ∧ t.1 < g.tx ∧ t.2 < g.ty := by
  unfold vclC06Towers
  simp only [List.mem_flatMap, List.mem_filterMap, List.mem_range, Option.ite_none_left_eq_some, Option.some.injEq, not_or, not_le]
  constructor
  · rintro ⟨y, hy, x, hx, ⟨h1, h2⟩, rfl⟩
    refine ⟨?_, ?_, by simpa using h1, by simpa using h2⟩
    · show (c.x * g.per + x) / g.per = c.x
      rw [Nat.mul_comm, Nat.mul_add_div hp, Nat.div_eq_of_lt hx, Nat.add_zero]
    · show (c.y * g.per + y) / g.per = c.y
      rw [Nat.mul_comm, Nat.mul_add_div hp, Nat.div_eq_of_lt hy, Nat.add_zero]
  · rintro ⟨h1, h2, h3, h4⟩
    have d1 := Nat.div_add_mod t.1 g.per
    have d2 := Nat.div_add_mod t.2 g.per
    rw [h1, Nat.mul_comm] at d1
    rw [h2, Nat.mul_comm] at d2
    exact ⟨t.2 % g.per, Nat.mod_lt _ hp, t.1 % g.per, Nat.mod_lt _ hp, ⟨by rw [d1]; exact h3, by rw [d2]; exact h4⟩,
      by rw [d1, d2]⟩

theorem nodup_vclC06Towers {g : VCLGrid} (c : V3 Nat) : (vclC06Towers g c).Nodup := by
  unfold vclC06Towers
  rw [List.nodup_flatMap]
  refine ⟨fun y _ => ?_, List.nodup_range.imp ?_⟩
  · apply List.Nodup.filterMap
    · intro a b x ha hb
      simp only [Option.mem_def, Option.ite_none_left_eq_some, Option.some.injEq] at ha hb
      have := congrArg Prod.fst (ha.2.trans hb.2.symm)
      simp only at this
      omega
    · exact List.nodup_range
  · intro a b hab x h1 h2
    simp only [List.mem_filterMap, Option.ite_none_left_eq_some, Option.some.injEq] at h1 h2
    obtain ⟨u, -, -, h1⟩ := h1
    obtain ⟨v, -, -, h2⟩ := h2
    have := congrArg Prod.snd (h1.trans h2.symm)
    simp only at this
    omega

theorem div_lt_ceil {x n p : Nat} (hp : 0 < p) (hx : x < n) : x / p < ⌈(n : Rat) / p⌉.toNat := by
  generalize hq : (n : Rat) / p = q
  have hp' : (0 : Rat) < p := Nat.cast_pos.2 hp
  have h1 : ((x / p : Nat) : Rat) * p ≤ x := by exact_mod_cast Nat.div_mul_le_self x p
  have h2 : (x : Rat) < n := by exact_mod_cast hx
  have h3 : ((x / p : Nat) : Rat) < q := by rw [← hq, lt_div_iff₀ hp']; linarith
  have h4 := lt_of_lt_of_le h3 (Int.le_ceil _)
  have h5 : ((x / p : Nat) : Int) < ⌈q⌉ := by
    have h6 : (((x / p : Nat) : Int) : Rat) < ((⌈q⌉ : Int) : Rat) := by rw [Int.cast_natCast]; exact h4
    exact Int.cast_lt.1 h6
  omega

/-- The sliced traversals are always applicable to the grid of the rebuild. -/
theorem VCLGrid.Ok.longest {g : VCLGrid} (h : g.Ok ox oy) :
    (doubleOverlap (overlapOf g.il (vclSelectorLength g)).toNat).get (longestAxis (vclSelectorDims g)) + 1 ≤
        (vclSelectorDims g).get (longestAxis (vclSelectorDims g)) ∧
      0 < (doubleOverlap (overlapOf g.il (vclSelectorLength g)).toNat).get (longestAxis (vclSelectorDims g)) := by
  have hx := h.perX_pos
  have hy := h.perY_pos
  have h1 := h.tx
  have h2 := h.ty
  have h3 := h.oxPos
  have h4 := h.oyPos
  have hd := h.dims
  rw [doubleOverlap_get]
  unfold VCLGrid.perX at hx h1
  unfold VCLGrid.perY at hy h2
  have hc : ¬(g.tx ≤ 1 ∧ g.ty ≤ 1) := by omega
  unfold vclSelectorDims vclSelectorLength overlapOf V3.toNat longestAxis V3.get
  simp only [hc, if_false]
  by_cases hc' : g.tx ≤ g.ty
  · simp only [if_pos hc', one_ne_zero, if_false, if_true]
    omega
  · simp only [if_neg hc', if_true]
    omega

/-- Every traversal processes every cluster it has to, exactly once. -/
theorem vcl_visits (h : VCLRebuilt s ox oy) (info : VCLGrid) (t : VCLTraversal) (ht : t.Admissible s info) :
    VisitsAll s (s.packages info t).flatten.flatten := by
  have hper := h.ok.per_pos
  cases t with
  | clusterIteration =>
    have e : (s.packages info .clusterIteration).flatten.flatten =
        ((List.range s.g.tx).flatMap fun x => (List.range s.g.ty).map fun y => (x, y)).flatMap s.clustersOf := by
      unfold VCL.packages
      simp only [List.flatten_singleton, List.flatMap_assoc, List.flatMap_map]
      rw [List.flatMap_def, List.flatten_flatten, List.map_map, ← List.flatMap_def]
      apply List.flatMap_congr
      intro x _
      simp only [Function.comp_apply, List.flatMap_def]
    rw [e]
    apply visits_of_towers
    · rw [List.nodup_flatMap]
      refine ⟨fun x _ => List.Nodup.map (fun a b h => (Prod.mk.inj h).2) List.nodup_range, List.nodup_range.imp ?_⟩
      intro a b hab x h1 h2
      obtain ⟨_, -, rfl⟩ := List.mem_map.1 h1
      obtain ⟨_, -, e⟩ := List.mem_map.1 h2
      exact hab (Prod.mk.inj e).1.symm
    · intro t
      simp only [List.mem_flatMap, List.mem_map, List.mem_range]
      constructor
      · rintro ⟨x, hx, y, hy, rfl⟩; exact ⟨hx, hy⟩
      · rintro ⟨h1, h2⟩; exact ⟨t.1, h1, t.2, h2, rfl⟩
  | c01Balanced ranges =>
    obtain ⟨hn, perThread, numThreads, old, hT, rfl⟩ := ht
    have hpart := (C68_thread_partition perThread numThreads hT old (fun i => vclFirstOwned s.clusterSize s.own (s.towers.getD i []))
      (fun i => vclFirstTail s.clusterSize s.own (s.towers.getD i [])) s.towers.length
      (fun c => (s.neighbours (s.g.to2D c.1, c.2)).length)).2.1
    have e : (s.packages info (.c01Balanced (fillClusterRanges perThread numThreads old s.ownedClusters))).flatten.flatten =
        ((List.range s.towers.length).map s.g.to2D).flatMap s.clustersOf := by
      unfold VCL.packages
      simp only
      rw [List.flatten_singleton, ← List.flatMap_def, ← List.map_flatMap]
      unfold VCL.ownedClusters
      rw [hpart, List.map_flatMap, List.flatMap_map]
      apply List.flatMap_congr
      intro i hi
      rw [List.mem_range, h.len] at hi
      unfold VCL.clustersOf vclRange VCL.tower
      rw [hn, VCLGrid.to1D_to2D hi]
      simp only [Bool.false_eq_true, if_false, List.map_map]
      rfl
    rw [e]
    apply visits_of_towers
    · rw [List.nodup_map_iff_inj_on List.nodup_range]
      intro a ha b hb hab
      rw [List.mem_range, h.len] at ha hb
      rw [← VCLGrid.to1D_to2D ha, ← VCLGrid.to1D_to2D hb, hab]
    · intro t
      simp only [List.mem_map, List.mem_range, h.len]
      constructor
      · rintro ⟨i, hi, rfl⟩; exact VCLGrid.to2D_lt hi
      · rintro ⟨h1, h2⟩; exact ⟨s.g.to1D t, VCLGrid.to1D_lt h1 h2, VCLGrid.to2D_to1D h1⟩
  | c06 =>
    have e : (s.packages info .c06).flatten.flatten =
        ((colorTraversal (vclC06Dims s.g) ⟨3, 2, 1⟩ ⟨0, 0, 0⟩).flatten.flatMap (vclC06Towers s.g)).flatMap s.clustersOf := by
      unfold VCL.packages
      rw [← List.map_flatten, ← List.flatMap_def, List.flatMap_assoc]
    rw [e]
    have hnd := nodup_colorTraversal (vclC06Dims s.g) ⟨3, 2, 1⟩ ⟨0, 0, 0⟩
    have hmem : ∀ c, c ∈ (colorTraversal (vclC06Dims s.g) ⟨3, 2, 1⟩ ⟨0, 0, 0⟩).flatten ↔ InRange c (vclC06Dims s.g) ⟨0, 0, 0⟩ :=
      fun c => mem_colorTraversal (by simp) (by simp) (by simp)
    apply visits_of_towers
    · rw [List.nodup_flatMap]
      refine ⟨fun c _ => nodup_vclC06Towers c, ?_⟩
      rw [List.pairwise_iff_getElem]
      intro i j hi hj hij x h1 h2
      rw [mem_vclC06Towers hper] at h1 h2
      have m1 := (hmem _).1 (List.getElem_mem hi)
      have m2 := (hmem _).1 (List.getElem_mem hj)
      have hne := nodup_getElem_ne hnd hi hj (by omega)
      apply hne
      obtain ⟨-, -, z1⟩ := m1
      obtain ⟨-, -, z2⟩ := m2
      have e1 := h1.1.symm.trans h2.1
      have e2 := h1.2.1.symm.trans h2.2.1
      generalize (colorTraversal (vclC06Dims s.g) ⟨3, 2, 1⟩ ⟨0, 0, 0⟩).flatten[i] = a at *
      generalize (colorTraversal (vclC06Dims s.g) ⟨3, 2, 1⟩ ⟨0, 0, 0⟩).flatten[j] = b at *
      rcases a with ⟨ax, ay, az⟩
      rcases b with ⟨bx, by', bz⟩
      simp only [vclC06Dims] at *
      rw [e1, e2, show az = bz by omega]
    · intro t
      rw [List.mem_flatMap]
      constructor
      · rintro ⟨c, -, hc⟩
        have := (mem_vclC06Towers hper).1 hc
        exact ⟨this.2.2.1, this.2.2.2⟩
      · rintro ⟨h1, h2⟩
        refine ⟨⟨t.1 / s.g.per, t.2 / s.g.per, 0⟩, ?_, (mem_vclC06Towers hper).2 ⟨rfl, rfl, h1, h2⟩⟩
        rw [hmem]
        exact ⟨⟨Nat.zero_le _, div_lt_ceil hper h1⟩, ⟨Nat.zero_le _, div_lt_ceil hper h2⟩, ⟨Nat.zero_le _, Nat.one_pos⟩⟩
  | sliced thick =>
    obtain ⟨rfl, ht⟩ := ht
    obtain ⟨hl1, hl2⟩ := h.ok.longest
    obtain ⟨hB1, hB2⟩ := vlcBases_facts_of hl1 hl2 _ s.newton3 ht
    exact sliced_visits hB1 (fun c => (hB2 c).trans (by simp [VLCTraversal.Visits]))
  | slicedC02 =>
    have ht : info = s.g := ht
    subst ht
    obtain ⟨hl1, hl2⟩ := h.ok.longest
    obtain ⟨hB1, hB2⟩ := vlcBases_facts_of hl1 hl2 .slicedC02 s.newton3 trivial
    exact sliced_visits hB1 (fun c => (hB2 c).trans (by simp [VLCTraversal.Visits]))
where
  sliced_visits {B : List (List (List (V3 Nat)))} (hnd : B.flatten.flatten.Nodup)
      (hm : ∀ c, c ∈ B.flatten.flatten ↔ InGrid c (vclSelectorDims s.g)) :
      VisitsAll s (B.map fun phase => phase.map fun slice => slice.flatMap fun b => s.clustersOf (b.x, b.y)).flatten.flatten := by
    have e : (B.map fun phase => phase.map fun slice => slice.flatMap fun b => s.clustersOf (b.x, b.y)).flatten.flatten =
        (B.flatten.flatten.map fun b => (b.x, b.y)).flatMap s.clustersOf := by
      rw [nested_flatMap, List.flatMap_map]
    rw [e]
    apply visits_of_towers
    · rw [List.nodup_map_iff_inj_on hnd]
      intro a ha b hb hab
      obtain ⟨-, -, z1⟩ := (hm a).1 ha
      obtain ⟨-, -, z2⟩ := (hm b).1 hb
      simp only [vclSelectorDims] at z1 z2
      rcases a with ⟨ax, ay, az⟩
      rcases b with ⟨bx, by', bz⟩
      simp only [Prod.mk.injEq] at *
      rw [hab.1, hab.2, show az = bz by omega]
    · intro t
      rw [List.mem_map]
      constructor
      · rintro ⟨b, hb, rfl⟩
        obtain ⟨h1, h2, -⟩ := (hm b).1 hb
        exact ⟨h1, h2⟩
      · rintro ⟨h1, h2⟩
        exact ⟨⟨t.1, t.2, 0⟩, (hm _).2 ⟨h1, h2, Nat.one_pos⟩, rfl⟩

end
end Verif
