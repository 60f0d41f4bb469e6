import Verif.Lemmas.ForEachVCL
import Verif.Props.C64
import Verif.Props.C111
/-!
C113: `forEach`, `reduce`, `forEachInRegion` and `reduceInRegion` of VerletClusterLists treat every selected particle exactly once. A tower is a
pair here: its particles, and the padding that fills up its last cluster. The property fails for behaviours that ask for dummies
(`C113_violated_padding`) and for regions if the numbers of towers per interaction length differ in x and y (`C113_violated_region`).
-/
namespace Verif
open Spec

private theorem named_of {behavior : Nat} (hb : behavior ∈ [1, 2, 3]) : NamedBehavior behavior := by
  simp only [List.mem_cons, List.not_mem_nil, or_false] at hb
  rcases hb with rfl | rfl | rfl <;> decide

private theorem no_dummy {behavior : Nat} (hb : behavior ∈ [1, 2, 3]) {p : Particle} (hp : p.own = .dummy) : wanted behavior p.own = false := by
  rw [hp]
  simp only [List.mem_cons, List.not_mem_nil, or_false] at hb
  rcases hb with rfl | rfl | rfl <;> decide

/-- For owned, halo, and owned or halo particles, whatever the towers and the vectors of particles still to be sorted in hold: `forEach`
applies the code to the particles of the asked kind and to no others, and leaves the padding alone; `reduce` folds the code over them, each
exactly once. Missing for the full property: behaviours that ask for dummies. -/
theorem C113_whole_partial (behavior : Nat) (hb : behavior ∈ [1, 2, 3]) (ts : List (List Particle × List Particle))
    (hpad : ∀ t ∈ ts, ∀ p ∈ t.2, p.own = .dummy) (toAdd : List (List Particle)) :
    (∀ f, vclForEach behavior f (ts.map fun t => t.1 ++ t.2) toAdd =
      .ok (ts.map fun t => (t.1.map fun p => if wanted behavior p.own then f p else p) ++ t.2,
        applyTo (fun p => wanted behavior p.own) f toAdd)) ∧
    ∀ (A : Type) (k : A → Particle → A) (a : A), vclReduce behavior k (ts.map fun t => t.1 ++ t.2) toAdd a =
      .ok ((((ts.map Prod.fst).flatten ++ toAdd.flatten).filter fun p => wanted behavior p.own).foldl k a) := by
  have hn := named_of hb
  have hd : ∀ t ∈ ts, ∀ p ∈ t.2, (fun p : Particle => wanted behavior p.own) p = false := fun t ht p hp => no_dummy hb (hpad t ht p hp)
  constructor
  · intro f
    unfold vclForEach
    rw [forEachCells_range _ _ _ (cellSelects_whole hn) f, forEachCells_range _ _ _ (cellSelects_whole hn) f, applyTo_padded _ f ts hd]
    rfl
  · intro A k a
    unfold vclReduce
    rw [reduceCells_range _ _ _ (cellSelects_whole hn), filter_padded _ ts hd]
    show reduceCells _ _ _ _ _ _ = _
    rw [reduceCells_range _ _ _ (cellSelects_whole hn), List.filter_append, List.foldl_append]

/-- The read-only `reduce` gives the same result; but it throws if the container counts as valid although particles wait to be sorted in. -/
theorem C113_const (valid : Bool) (behavior : Nat) (towers toAdd : List (List Particle)) {A : Type} (k : A → Particle → A) (a : A) :
    vclReduceConst valid behavior k towers toAdd a =
      if valid = true ∧ toAdd.flatten ≠ [] then .throws else vclReduce behavior k towers toAdd a := by
  have he : toAdd.all List.isEmpty = false ↔ toAdd.flatten ≠ [] := by
    rw [← Bool.not_eq_true, List.all_eq_true, not_iff_not.2, ]
    rw [List.flatten_eq_nil_iff]
    constructor
    · intro h l hl; simpa using h l hl
    · intro h l hl; simpa using h l hl
  unfold vclReduceConst vclReduce
  by_cases hc : valid = true ∧ toAdd.flatten ≠ []
  · rw [if_pos ⟨hc.1, he.2 hc.2⟩, if_pos hc]
  · rw [if_neg (fun h => hc ⟨h.1, he.1 h.2⟩), if_neg hc]
    cases valid with
    | false => rfl
    | true =>
      have h0 : toAdd.flatten = [] := by
        by_contra hne; exact hc ⟨rfl, hne⟩
      have hz : ∀ a' : A, reduceCells (some behavior) none k toAdd (List.range toAdd.length) a' = .ok a' := by
        intro a'
        rw [reduceCells_ok (sel := fun _ => true) k toAdd _ _ a', range_flatMap_getD, h0]
        · rfl
        · intro c _ p hp
          rw [List.flatten_eq_nil_iff] at h0
          rw [List.getD_eq_getElem?_getD] at hp
          cases hcc : toAdd[c]? with
          | none => rw [hcc] at hp; cases hp
          | some l => rw [hcc, h0 l (List.mem_of_getElem? hcc)] at hp; cases hp
      simp only [hz, if_true]

/-- Regions. If every particle is stored where the last rebuild put it and moved at most half the skin since, `forEachInRegion` applies the code
to the particles of the asked kind inside of the region and to no others, and `reduceInRegion` folds the code over them, each exactly once.
Missing for the full property: behaviours that ask for dummies, and grids with different numbers of towers per interaction length in x
and y. -/
theorem C113_region_partial (g : VCLGrid) (ox oy : Nat) (hg : g.Ok ox oy) (he : g.Even) (hsmall : g.tx < 2 ^ 64 ∧ g.ty < 2 ^ 64) (skin : Rat)
    (lo hi : V3 Rat) (behavior : Nat) (hb : behavior ∈ [1, 2, 3]) (ts : List (List Particle × List Particle))
    (hpad : ∀ t ∈ ts, ∀ p ∈ t.2, p.own = .dummy) (toAdd : List (List Particle)) (hs : VCLStorage g (skin / 2) (ts.map Prod.fst) toAdd) :
    (∀ f, vclForEachInRegion g skin behavior lo hi f (ts.map fun t => t.1 ++ t.2) toAdd =
      .ok (ts.map fun t => (t.1.map fun p => if wanted behavior p.own && decide (InBox p.pos lo hi) then f p else p) ++ t.2,
        applyTo (fun p => wanted behavior p.own && decide (InBox p.pos lo hi)) f toAdd)) ∧
    ∃ l : List Particle,
      l.Perm (((ts.map Prod.fst).flatten ++ toAdd.flatten).filter fun p => wanted behavior p.own && decide (InBox p.pos lo hi)) ∧
      ∀ (A : Type) (k : A → Particle → A) (a : A),
        vclReduceInRegion g skin behavior lo hi k (ts.map fun t => t.1 ++ t.2) toAdd a = .ok (l.foldl k a) := by
  have hn := named_of hb
  set sel : Particle → Bool := fun p => wanted behavior p.own && decide (InBox p.pos lo hi) with hsel
  set cells := ts.map fun t => t.1 ++ t.2 with hcells
  have hd : ∀ t ∈ ts, ∀ p ∈ t.2, sel p = false := fun t ht p hp => by
    rw [hsel]; simp only [no_dummy hb (hpad t ht p hp), Bool.false_and]
  have hlen : cells.length = (ts.map Prod.fst).length := by rw [hcells, List.length_map, List.length_map]
  have hskip : ∀ c, c ∉ vclRegionTowers g skin behavior lo hi cells.length → ∀ p ∈ cells.getD c [], sel p = false := by
    intro c hc p hp
    by_contra hw
    rw [Bool.not_eq_false] at hw
    rw [hlen] at hc
    have hmem : p ∈ (ts.map Prod.fst).getD c [] := by
      rw [hcells, List.getD_eq_getElem?_getD, List.getElem?_map] at hp
      rw [List.getD_eq_getElem?_getD, List.getElem?_map]
      cases ht : ts[c]? with
      | none => rw [ht] at hp; cases hp
      | some t =>
        rw [ht] at hp
        have hp' : p ∈ t.1 ++ t.2 := hp
        rw [List.mem_append] at hp'
        rcases hp' with hp' | hp'
        · exact hp'
        · rw [hd t (List.mem_of_getElem? ht) p hp'] at hw; cases hw
    have hw' := hw
    rw [hsel] at hw'
    simp only [Bool.and_eq_true, decide_eq_true_eq] at hw'
    exact hc (vclRegionTowers_mem hg he hsmall hs hb hmem hw'.1 hw'.2)
  have hnd : (vclRegionTowers g skin behavior lo hi cells.length).Nodup := List.nodup_range.filter _
  have hlt : ∀ c ∈ vclRegionTowers g skin behavior lo hi cells.length, c < cells.length :=
    fun c hc => List.mem_range.1 (List.mem_filter.1 hc).1
  constructor
  · intro f
    unfold vclForEachInRegion
    rw [forEachCells_all f _ hnd cells (fun c _ p _ => cellSelects_region hn lo hi p) hskip,
      forEachCells_range _ _ _ (cellSelects_region hn lo hi) f, applyTo_padded _ f ts hd]
    rfl
  · refine ⟨((vclRegionTowers g skin behavior lo hi cells.length).flatMap fun c => (cells.getD c []).filter sel) ++ toAdd.flatten.filter sel,
      ?_, fun A k a => ?_⟩
    · rw [List.filter_append, ← filter_padded sel ts hd]
      exact (cells_flatMap_perm sel cells _ hnd hlt hskip).append_right _
    · unfold vclReduceInRegion
      rw [reduceCells_ok k cells _ (fun c _ p _ => cellSelects_region hn lo hi p) a]
      show reduceCells _ _ _ _ _ _ = _
      rw [reduceCells_range _ _ _ (cellSelects_region hn lo hi), List.foldl_append]

/-- What a rebuild appends to a tower: fewer dummies than a cluster has places, so that all clusters are full; counted from the end, their places are one, two, ...
times the given distance from each other. -/
theorem C113_padding {clusterSize : Nat} (hc : 0 < clusterSize) (dummyStartX dummyDistZ : Rat) (tower : List Particle) :
    ∃ pad, vclPadded clusterSize dummyStartX dummyDistZ tower = tower ++ pad ∧ clusterSize ∣ (tower ++ pad).length ∧ pad.length < clusterSize ∧
      (∀ p ∈ pad, p.own = .dummy) ∧
      ∀ index, 1 ≤ index → index ≤ pad.length → (pad.reverse[index - 1]?).map Particle.pos = some ⟨dummyStartX, 0, dummyDistZ * (index : Rat)⟩ := by
  refine ⟨_, rfl, ?_, ?_, ?_, ?_⟩
  · simp only [List.length_append, List.length_map, List.length_reverse, List.length_range]
    unfold vclPadding
    have hlt := Nat.mod_lt tower.length hc
    split
    · rename_i h0; rw [Nat.add_zero]; exact Nat.dvd_of_mod_eq_zero h0
    · refine ⟨tower.length / clusterSize + 1, ?_⟩
      have := Nat.div_add_mod tower.length clusterSize
      rw [Nat.mul_add, Nat.mul_one]
      omega
  · simp only [List.length_map, List.length_reverse, List.length_range]
    unfold vclPadding
    split
    · exact hc
    · omega
  · intro p hp
    obtain ⟨k, -, rfl⟩ := List.mem_map.1 hp
    rfl
  · intro index h1 h2
    simp only [List.length_map, List.length_reverse, List.length_range] at h2
    rw [← List.map_reverse, List.reverse_reverse, List.getElem?_map, List.getElem?_range (by omega)]
    simp only [Option.map_some, Option.some.injEq]
    have : (((index - 1 : Nat) : Rat) + 1) = (index : Rat) := by
      rw [Nat.cast_sub h1]; simp
    rw [this]

/-- Three dummies after one particle in clusters of four. -/
example (dummyStartX dummyDistZ : Rat) : (vclPadded 4 dummyStartX dummyDistZ [exUpper]).length = 4 := rfl

/-- One particle, clusters of four. Asked for all particles, dummies included, an iterator visits one particle; `reduce` hands four to the
code, three of them padding that nobody has added. -/
theorem C113_violated_padding (dummyStartX dummyDistZ : Rat) :
    (vclPadded 4 dummyStartX dummyDistZ [exUpper]).filter (fun p => decide (p.own ≠ .dummy)) = [exUpper] ∧
    vclReduce ibOwnedOrHaloOrDummy countParticle [vclPadded 4 dummyStartX dummyDistZ [exUpper]] [] 0 = .ok 4 := by
  refine ⟨rfl, ?_⟩
  have h := reduceCells_range (some ibOwnedOrHaloOrDummy) none (fun p => wanted ibOwnedOrHaloOrDummy p.own)
    (cellSelects_whole (by decide)) countParticle [vclPadded 4 dummyStartX dummyDistZ [exUpper]] 0
  unfold vclReduce
  rw [h]
  have e : ([vclPadded 4 dummyStartX dummyDistZ [exUpper]].flatten.filter fun p => wanted ibOwnedOrHaloOrDummy p.own).length = 4 := by
    rw [List.filter_eq_self.2 fun p _ => wanted_all p.own]; rfl
  show Outcome.ok _ = _
  have hc : ∀ (l : List Particle) (a : Nat), l.foldl countParticle a = a + l.length := by
    intro l
    induction l with
    | nil => intro a; rfl
    | cons p l ih => intro a; rw [List.foldl_cons, ih, List.length_cons]; unfold countParticle; omega
  rw [hc, e]

/-- A halo particle that lies in the region, stored where a rebuild puts it and not moved since, is not visited if the numbers of towers per
interaction length differ in x and y. -/
theorem C113_violated_region (cbrt : Rat → Rat) (h : cbrt (27/8) = 3/2) :
    let g := vclEstimate cbrt ⟨0, 0, 0⟩ ⟨2, 3, 9/16⟩ (6/5) 1 1
    let towers := vclRebuild g Particle.pos Particle.own [] [exUpperHalo]
    InBox exUpperHalo.pos ⟨-1/2, 305/100, 0⟩ ⟨1, 32/10, 1/2⟩ ∧ VCLStorage g 0 towers [] ∧ towers.flatten = [exUpperHalo] ∧
    vclReduceInRegion g (1/10) ibHalo ⟨-1/2, 305/100, 0⟩ ⟨1, 32/10, 1/2⟩ countParticle towers [] 0 = .ok 0 := by
  intro g towers
  obtain ⟨h1, h2, h3, -⟩ := C64_violated_region cbrt h
  refine ⟨h1, h2, h3, ?_⟩
  show vclReduceInRegion (exUneven cbrt) _ _ _ _ _ (vclRebuild (exUneven cbrt) _ _ _ _) _ _ = _
  rw [(exUneven_eq cbrt h).1]
  decide +kernel

/-! Non-vacuity: the box `[0,1)³` with interaction length 1, an owned particle that has left the box by `1/20` since the rebuild, one that
has not, with two dummies as padding, a halo particle, and a particle still to be sorted in. -/

private def vclG : VCLGrid := ⟨⟨0, 0, 0⟩, ⟨1, 1, 1⟩, 1, 1, 1, 3, 3⟩

private theorem vclG_ok : vclG.Ok 1 1 ∧ vclG.Even := by
  refine ⟨⟨by decide, by decide, by norm_num [vclG], by norm_num [vclG], by norm_num [vclG], by norm_num [vclG], by norm_num [vclG],
    by norm_num [vclG], ?_, ?_⟩, ?_⟩ <;> simp [VCLGrid.Even, VCLGrid.perX, VCLGrid.perY, vclG]

private def vclTs : List (List Particle × List Particle) :=
  [([], []), ([], []), ([], []), ([⟨3, ⟨-1/2, 1/2, 1/2⟩, .halo⟩], []),
    ([⟨1, ⟨21/20, 1/2, 1/2⟩, .owned⟩, ⟨2, ⟨1/2, 1/2, 1/2⟩, .owned⟩], [⟨2 ^ 64 - 1, ⟨8, 0, 2⟩, .dummy⟩, ⟨2 ^ 64 - 1, ⟨8, 0, 1⟩, .dummy⟩]),
    ([], []), ([], []), ([], []), ([], [])]

private theorem vclTs_pad : ∀ t ∈ vclTs, ∀ p ∈ t.2, p.own = .dummy := by decide +kernel

private theorem vclTs_storage : VCLStorage vclG ((1/5) / 2) (vclTs.map Prod.fst) [[⟨5, ⟨1/8, 1/8, 1/8⟩, .owned⟩]] := by
  refine ⟨rfl, ?_, by decide, by decide, by decide⟩
  intro i p hp
  have hi : i < 9 := by
    by_contra hc
    rw [List.getD_eq_getElem?_getD, List.getElem?_eq_none (by simpa [vclTs] using hc)] at hp
    cases hp
  interval_cases i <;> simp [vclTs] at hp
  · subst hp
    exact ⟨⟨-1/2, 1/2, 1/2⟩, by decide +kernel, by decide +kernel, by simp, by norm_num, by norm_num, by norm_num⟩
  · rcases hp with rfl | rfl
    · refine ⟨⟨19/20, 1/2, 1/2⟩, by decide +kernel, by decide +kernel, fun _ => by decide +kernel, ?_, by norm_num, by norm_num⟩
      rw [abs_le]; norm_num
    · exact ⟨⟨1/2, 1/2, 1/2⟩, by decide +kernel, by decide +kernel, fun _ => by decide +kernel, by norm_num, by norm_num, by norm_num⟩

/-- Three owned particles, two of them in a tower. -/
example : vclReduce ibOwned countParticle (vclTs.map fun t => t.1 ++ t.2) [[⟨5, ⟨1/8, 1/8, 1/8⟩, .owned⟩]] 0 = .ok 3 := by
  rw [(C113_whole_partial ibOwned (by decide) vclTs vclTs_pad _).2]
  decide +kernel

/-- The one that has left is found in its new place. -/
example : vclReduceInRegion vclG (1/5) ibOwned ⟨1, 0, 0⟩ ⟨2, 1, 1⟩ (fun l p => l ++ [p.id]) (vclTs.map fun t => t.1 ++ t.2)
    [[⟨5, ⟨1/8, 1/8, 1/8⟩, .owned⟩]] [] = .ok [1] := by
  obtain ⟨-, l, h1, h2⟩ := C113_region_partial vclG 1 1 vclG_ok.1 vclG_ok.2 (by decide) (1/5) ⟨1, 0, 0⟩ ⟨2, 1, 1⟩ ibOwned (by decide) vclTs
    vclTs_pad _ vclTs_storage
  have e : (((vclTs.map Prod.fst).flatten ++ [[(⟨5, ⟨1/8, 1/8, 1/8⟩, .owned⟩ : Particle)]].flatten).filter fun p =>
      wanted ibOwned p.own && decide (InBox p.pos ⟨1, 0, 0⟩ ⟨2, 1, 1⟩)) = [⟨1, ⟨21/20, 1/2, 1/2⟩, .owned⟩] := by decide +kernel
  rw [e, List.perm_singleton] at h1
  rw [h2, h1]
  rfl

end Verif
