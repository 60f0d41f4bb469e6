import Verif.Lemmas.ForEachOctree
import Verif.Lemmas.ExampleStore
import Verif.Props.C25
/-!
C111: `forEach`, `reduce`, `forEachInRegion` and `reduceInRegion` treat every selected particle exactly once. The property fails for
particles in the buffers of AutoPas (`C111_violated_buffers`), for particles that have left while neighbour lists are kept, in DirectSum and
Octree (`C111_violated_dummies`), and for regions of an Octree whose particles have moved (`C111_violated_octree_region`).
-/
namespace Verif
open Spec Octree

/-- LinkedCells. For each of the named behaviours, `forEach` applies the code to the stored particles of that kind and to no others, and
`reduce` folds the code over them, each exactly once, in the order in which they are stored. -/
theorem C111_linkedCells {b : CellBlock} {cells vecs : List (List Particle)} (hs : LCStorage b cells vecs) {behavior : Nat}
    (hb : NamedBehavior behavior) :
    (∀ f, lcForEach b behavior f cells = .ok (applyTo (fun p => wanted behavior p.own) f cells)) ∧
    ∀ (A : Type) (g : A → Particle → A) (a : A),
      lcReduce b behavior g cells a = .ok ((cells.flatten.filter fun p => wanted behavior p.own).foldl g a) := by
  obtain ⟨h1, -, h3, h4, h5⟩ := lcWhole_spec hs hb
  refine ⟨fun f => forEachCells_all f _ h1 cells (fun c _ p _ => h3 p) h4, fun A g a => ?_⟩
  unfold lcReduce
  rw [reduceCells_ok g cells _ (fun c _ p _ => h3 p) a, h5]

/-- LinkedCells, regions. If no particle moved further than the skin since it was sorted into its cell, `forEachInRegion` applies the code
to the particles of the asked kind inside of the region and to no others, and `reduceInRegion` folds the code over them, each exactly once. -/
theorem C111_linkedCells_region (bMin bMax : V3 Rat) (il csf skin : Rat) (hbox : GoodBox bMin bMax il csf) (hskin : 0 ≤ skin)
    (lo hi : V3 Rat) (hx : lo.x ≤ hi.x) (hy : lo.y ≤ hi.y) (hz : lo.z ≤ hi.z)
    (hn : (CellBlock.rebuild id bMin bMax il csf).numCells < 2 ^ 60 - 1) (cells vecs : List (List Particle))
    (hs : LCStorage (CellBlock.rebuild id bMin bMax il csf) cells vecs)
    (hm : MovedAtMost (CellBlock.rebuild id bMin bMax il csf) skin cells) (behavior : Nat) (hb : NamedBehavior behavior) :
    (∀ f, lcForEachInRegion (CellBlock.rebuild id bMin bMax il csf) skin behavior lo hi f cells =
      .ok (applyTo (fun p => wanted behavior p.own && decide (InBox p.pos lo hi)) f cells)) ∧
    ∃ l : List Particle, l.Perm (cells.flatten.filter fun p => wanted behavior p.own && decide (InBox p.pos lo hi)) ∧
      ∀ (A : Type) (g : A → Particle → A) (a : A),
        lcReduceInRegion (CellBlock.rebuild id bMin bMax il csf) skin behavior lo hi g cells a = .ok (l.foldl g a) := by
  obtain ⟨cs, h0, h1, h2, h3, h4⟩ := lcInterest_spec hbox hskin hx hy hz (by omega) hs hm hb
  refine ⟨fun f => ?_, _, cells_flatMap_perm _ cells _ h1 h2 h4, fun A g a => ?_⟩
  · unfold lcForEachInRegion
    rw [h0]
    exact forEachCells_all f _ h1 cells (fun c _ p _ => h3 p) h4
  · unfold lcReduceInRegion
    rw [h0]
    exact reduceCells_ok g cells _ (fun c _ p _ => h3 p) a

/-- A behaviour that has no name of its own (for example `owned` together with `forceSequential`) makes the loops throw as soon as they reach
a particle. -/
theorem C111_unnamed_throws (behavior : Nat) (hb : ¬ NamedBehavior behavior) (region : Option (V3 Rat × V3 Rat)) (l : List Particle)
    (hl : l ≠ []) (f : Particle → Particle) : cellForEach (some behavior) region f l = .throws := by
  cases l with
  | nil => exact absurd rfl hl
  | cons p l =>
    rw [cellForEach]
    simp only [cellSelects, contains_unnamed hb]
    rfl

/-- DirectSum, and particles that have been sorted in by AutoPas: those of cell 0 are not halo particles and those of the other cells are
not owned. With a region, all behaviours that ask for owned or halo particles are exact. Without a region, they are exact if no dummies are
stored (or dummies are asked for as well); missing for the full property: dummies (`C111_violated_dummies`) and asking only for dummies,
which throws. -/
theorem C111_directSum_partial (behavior : Nat) (hb : NamedBehavior behavior) (h4 : behavior ≠ ibDummy) (region : Option (V3 Rat × V3 Rat))
    (owned : List Particle) (halos : List (List Particle)) (ho : ∀ p ∈ owned, p.own ≠ .halo) (hh : ∀ p ∈ halos.flatten, p.own ≠ .owned)
    (hd : region = none → behavior ≠ ibOwnedOrHaloOrDummy → ∀ p ∈ owned ++ halos.flatten, p.own ≠ .dummy) :
    let sel : Particle → Bool := fun p => wanted behavior p.own && (region.all fun r => decide (InBox p.pos r.1 r.2))
    (∀ f, dsForEach behavior region f (owned :: halos) = .ok (applyTo sel f (owned :: halos))) ∧
    ∀ (A : Type) (g : A → Particle → A) (a : A),
      dsReduce behavior region g (owned :: halos) a = .ok (((owned :: halos).flatten.filter sel).foldl g a) := by
  intro sel
  have hsome : ¬ behavior &&& ibOwnedOrHalo = 0 := by
    simp only [NamedBehavior, List.mem_cons, List.not_mem_nil, or_false] at hb
    rcases hb with rfl | rfl | rfl | rfl | rfl <;> first | decide | exact absurd rfl h4
  have hmem : ∀ c, ∀ p ∈ (owned :: halos).getD c [], (c = 0 ∧ p ∈ owned) ∨ (1 ≤ c ∧ p ∈ halos.flatten) := by
    intro c p hp
    cases c with
    | zero => left; exact ⟨rfl, by simpa using hp⟩
    | succ c =>
      right
      refine ⟨by omega, ?_⟩
      rw [List.getD_cons_succ, List.getD_eq_getElem?_getD] at hp
      cases hc : halos[c]? with
      | none => rw [hc] at hp; simp at hp
      | some l => rw [hc] at hp; exact List.mem_flatten.2 ⟨l, List.mem_of_getElem? hc, hp⟩
  have hcs : ∀ c, c ∈ dsWholeCells behavior (owned :: halos).length ↔
      (c = 0 ∧ behavior.testBit 0 = true) ∨ (1 ≤ c ∧ c ≤ halos.length ∧ behavior.testBit 1 = true) := by
    intro c
    have e0 : (behavior &&& ibOwned ≠ 0) ↔ behavior.testBit 0 = true := and_bit_ne_zero behavior 0
    have e1 : (behavior &&& ibHalo ≠ 0) ↔ behavior.testBit 1 = true := and_bit_ne_zero behavior 1
    have em : c ∈ (List.range (owned :: halos).length).drop 1 ↔ 1 ≤ c ∧ c ≤ halos.length := by
      rw [List.length_cons, List.range_succ_eq_map, List.drop_one, List.tail_cons, List.mem_map]
      constructor
      · rintro ⟨d, hd, rfl⟩; rw [List.mem_range] at hd; omega
      · rintro ⟨h1, h2⟩; exact ⟨c - 1, by rw [List.mem_range]; omega, by omega⟩
    unfold dsWholeCells
    rw [List.mem_append]
    simp only [e0, e1]
    split
    · rename_i b0
      split
      · rename_i b1
        rw [em]; simp [b0, b1]
      · rename_i b1
        simp [b0, b1]
    · rename_i b0
      split
      · rename_i b1
        rw [em]; simp [b0, b1]
      · rename_i b1
        simp [b0, b1]
  have hnodup : (dsWholeCells behavior (owned :: halos).length).Nodup := by
    have e : (List.range (owned :: halos).length) = 0 :: (List.range (owned :: halos).length).drop 1 := by
      rw [List.length_cons, List.range_succ_eq_map]; rfl
    have hr := e ▸ (List.nodup_range (n := (owned :: halos).length))
    unfold dsWholeCells
    split <;> split
    · exact hr
    · simp
    · exact (List.nodup_cons.1 hr).2
    · simp
  -- every particle looked at is treated as the specification says
  have hsel : ∀ c ∈ dsWholeCells behavior (owned :: halos).length, ∀ p ∈ (owned :: halos).getD c [],
      cellSelects (region.map fun _ => behavior) region p = .ok (sel p) := by
    intro c hc p hp
    cases region with
    | some r =>
      simp only [cellSelects, Option.map_some, contains_named hb, inBoxB_iff, sel, Option.all_some]
    | none =>
      simp only [cellSelects, Option.map_none, sel, Option.all_none, Bool.and_true]
      congr 1
      symm
      by_cases h7 : behavior = ibOwnedOrHaloOrDummy
      · rw [h7]; exact wanted_all _
      · have hnd := hd rfl h7
        rcases (hcs c).1 hc with ⟨rfl, hbit⟩ | ⟨h1, -, hbit⟩
        · have hp' : p ∈ owned := by rcases hmem 0 p hp with h | h; exact h.2; omega
          cases hown : p.own with
          | owned => exact hbit
          | halo => exact absurd hown (ho p hp')
          | dummy => exact absurd hown (hnd p (by simp [hp']))
        · have hp' : p ∈ halos.flatten := by rcases hmem c p hp with h | h; omega; exact h.2
          cases hown : p.own with
          | owned => exact absurd hown (hh p hp')
          | halo => exact hbit
          | dummy => exact absurd hown (hnd p (by rw [List.mem_append]; exact Or.inr hp'))
  -- nothing is missed
  have hall : ∀ c, c ∉ dsWholeCells behavior (owned :: halos).length → ∀ p ∈ (owned :: halos).getD c [], sel p = false := by
    intro c hc p hp
    rw [hcs] at hc
    have hbits : ∀ s : Ownership, wanted behavior s = true → behavior.testBit 2 = true → behavior.testBit 0 = true ∧ behavior.testBit 1 = true := by
      intro s _ h2
      simp only [NamedBehavior, List.mem_cons, List.not_mem_nil, or_false] at hb
      rcases hb with rfl | rfl | rfl | rfl | rfl <;> first | exact absurd rfl h4 | (revert h2; decide)
    show (wanted behavior p.own && _) = false
    rw [Bool.and_eq_false_iff]
    left
    by_contra hw
    rw [Bool.not_eq_false] at hw
    have hlen : c ≤ halos.length := by
      by_contra hlt
      rw [List.getD_eq_getElem?_getD, List.getElem?_eq_none (by rw [List.length_cons]; omega)] at hp
      simp at hp
    rcases hmem c p hp with ⟨rfl, hp'⟩ | ⟨h1, hp'⟩
    · apply hc; left
      refine ⟨rfl, ?_⟩
      cases hown : p.own with
      | owned => rw [hown] at hw; exact hw
      | halo => exact absurd hown (ho p hp')
      | dummy => rw [hown] at hw; exact (hbits .dummy hw hw).1
    · apply hc; right
      refine ⟨h1, hlen, ?_⟩
      cases hown : p.own with
      | owned => exact absurd hown (hh p hp')
      | halo => rw [hown] at hw; exact hw
      | dummy => rw [hown] at hw; exact (hbits .dummy hw hw).2
  refine ⟨fun f => ?_, fun A g a => ?_⟩
  · unfold dsForEach
    rw [forEachCells_all f _ hnodup _ hsel hall]
    exact if_neg hsome
  · unfold dsReduce
    rw [reduceCells_ok g _ _ hsel a]
    have e : ((dsWholeCells behavior (owned :: halos).length).flatMap fun c => ((owned :: halos).getD c []).filter sel) =
        (owned :: halos).flatten.filter sel := by
      rw [← range_flatMap_getD, ← flatMap_of_sublist _ (fun c => decide (c ∈ dsWholeCells behavior (owned :: halos).length))
        (List.range (owned :: halos).length)]
      · congr 1
        have er : (List.range (owned :: halos).length) = 0 :: (List.range (owned :: halos).length).drop 1 := by
          rw [List.length_cons, List.range_succ_eq_map]; rfl
        have ed : ∀ c ∈ (List.range (owned :: halos).length).drop 1, 1 ≤ c ∧ c ≤ halos.length := by
          intro c hc
          rw [List.length_cons, List.range_succ_eq_map, List.drop_one, List.tail_cons, List.mem_map] at hc
          obtain ⟨d, hd, rfl⟩ := hc
          rw [List.mem_range] at hd; omega
        rw [er, List.filter_cons]
        have e0 : (behavior &&& ibOwned ≠ 0) ↔ behavior.testBit 0 = true := and_bit_ne_zero behavior 0
        have e1 : (behavior &&& ibHalo ≠ 0) ↔ behavior.testBit 1 = true := and_bit_ne_zero behavior 1
        have f0 : decide (0 ∈ dsWholeCells behavior (owned :: halos).length) = behavior.testBit 0 := by
          rw [Bool.eq_iff_iff, decide_eq_true_iff, hcs]; simp
        have f1 : ((List.range (owned :: halos).length).drop 1).filter (fun c => decide (c ∈ dsWholeCells behavior (owned :: halos).length)) =
            if behavior.testBit 1 = true then (List.range (owned :: halos).length).drop 1 else [] := by
          split
          · rename_i hbit
            rw [List.filter_eq_self]
            intro c hc
            rw [decide_eq_true_iff, hcs]
            exact Or.inr ⟨(ed c hc).1, (ed c hc).2, hbit⟩
          · rename_i hbit
            rw [List.filter_eq_nil_iff]
            intro c hc hx
            rw [decide_eq_true_iff, hcs] at hx
            rcases hx with h | h
            · have := (ed c hc).1; omega
            · exact hbit h.2.2
        rw [f0, f1]
        unfold dsWholeCells
        simp only [e0, e1]
        split <;> rfl
      · intro c _ hc
        rw [List.filter_eq_nil_iff]
        intro p hp
        rw [hall c (by simpa using hc) p hp]; simp
    rw [e]
    exact if_neg hsome

/-- Octree. `reduce` folds the code over all particles of the trees that are asked for, dummies included; `reduceInRegion` folds it over
those that are not dummies and inside of the region, if no particle moved since it was sorted in. Missing for the full property: dummies
(`C111_violated_dummies`), particles that moved (`C111_violated_octree_region`) and asking only for dummies, which throws. -/
theorem C111_octree_partial (cfg : OTCfg) (s : OTState) (behavior : Nat) (hb : NamedBehavior behavior) (h4 : behavior ≠ ibDummy)
    {A : Type} (g : A → Particle → A) (a : A) :
    let trees := (if behavior.testBit 0 then collectAll s.owned else []) ++ (if behavior.testBit 1 then collectAll s.halo else [])
    otReduce cfg s behavior none g a = .ok (trees.foldl g a) ∧
    ∀ lo hi, SortedWithin 0 s.owned cfg.box → SortedWithin 0 s.halo cfg.haloBox →
      otReduce cfg s behavior (some (lo, hi)) g a = .ok ((trees.filter fun p => decide (p.own ≠ .dummy) && decide (InBox p.pos lo hi)).foldl g a) := by
  intro trees
  have hsome : ¬ behavior &&& ibOwnedOrHalo = 0 := by
    simp only [NamedBehavior, List.mem_cons, List.not_mem_nil, or_false] at hb
    rcases hb with rfl | rfl | rfl | rfl | rfl <;> first | decide | exact absurd rfl h4
  have e0 : (behavior &&& ibOwned ≠ 0) ↔ behavior.testBit 0 = true := and_bit_ne_zero behavior 0
  have e1 : (behavior &&& ibHalo ≠ 0) ↔ behavior.testBit 1 = true := and_bit_ne_zero behavior 1
  have ew : ∀ o : Ownership, wanted ibOwnedOrHalo o = decide (o ≠ .dummy) := by intro o; cases o <;> decide
  constructor
  · unfold otReduce
    simp only [e0, e1, if_neg hsome, otReduceNode_whole, trees]
    cases behavior.testBit 0 <;> cases behavior.testBit 1 <;> simp [Outcome.bind]
  · intro lo hi h1 h2
    unfold otReduce
    simp only [e0, e1, if_neg hsome, otReduceNode_region g lo hi _ _ _ h1, otReduceNode_region g lo hi _ _ _ h2, trees, ew]
    cases behavior.testBit 0 <;> cases behavior.testBit 1 <;> simp [Outcome.bind]

/-- AutoPas, on a LinkedCells container, after any history of operations. `reduce` over the owned particles folds the code over a list `l`,
and `forEach` applies it to the particles of `l`; together with the particles in the buffers, `l` is what AutoPas is supposed to hold, each
particle exactly once. So the property holds if the buffers are empty. Missing for the full property: the buffers (`C111_violated_buffers`). -/
theorem C111_history_partial {c : LHParams} {h : List LHAction} (H : GoodHistory c h) :
    ∃ s outs l, lhRun c (LHState.init c) h = some (s, outs) ∧ (l ++ s.bufs.flatten).Perm (wantedRun c [] h).1 ∧
      (∀ (A : Type) (g : A → Particle → A) (a : A), s.reduce c ibOwned g a = .ok (l.foldl g a)) ∧
      ∀ f, s.forEach c ibOwned f = .ok { s with cells := applyTo (fun p => decide (p.own = .owned)) f s.cells } := by
  obtain ⟨s, outs, h1, ⟨mv, hI⟩, h3, -⟩ := lhRun_spec H.params h (init_inv c) (by have := H.short; omega) H.obligations
  rw [ownedOf_init, ownedOf_eq hI.bown hI.hown] at h3
  have hs : LCStorage c.block s.cells [] := (hI.store (by have := H.short; omega)).storage H.params (by simp) (by simp)
  have ew : ∀ p : Particle, wanted ibOwned p.own = isOwned p := by intro p; unfold isOwned; cases p.own <;> decide
  obtain ⟨f1, f2⟩ := C111_linkedCells hs (behavior := ibOwned) (by decide)
  simp only [ew] at f1 f2
  refine ⟨s, outs, _, h1, h3, fun A g a => f2 A g a, fun f => ?_⟩
  unfold LHState.forEach
  rw [f1 f]
  rfl

/-- Counting particles. -/
def countParticle (n : Nat) (_ : Particle) : Nat := n + 1

/-- A particle that is added while the neighbour lists are valid waits in a buffer of AutoPas. It belongs to AutoPas and an iterator visits
it, but neither `forEach` nor `reduce` does. -/
theorem C111_violated_buffers :
    let h : List LHAction := [.compute, .add 0 ⟨1, ⟨1/2, 1/2, 1/2⟩, .owned⟩]
    GoodHistory exParams h ∧ (wantedRun exParams [] h).1 = [⟨1, ⟨1/2, 1/2, 1/2⟩, .owned⟩] ∧
    ∃ s outs, lhRun exParams (LHState.init exParams) h = some (s, outs) ∧ s.reduce exParams ibOwned countParticle 0 = .ok 0 := by
  intro h
  have H : GoodHistory exParams h := ⟨exParams_ok, ⟨trivial, fun r _ => ⟨(by decide : 0 < 2), fun _ _ => trivial⟩⟩, by decide⟩
  have hw : (wantedRun exParams [] h).1 = [⟨1, ⟨1/2, 1/2, 1/2⟩, .owned⟩] := by decide +kernel
  obtain ⟨s, outs, l, h1, h2, h3, -⟩ := C111_history_partial H
  refine ⟨H, hw, s, outs, h1, ?_⟩
  have e1 : inBoxB (⟨1/2, 1/2, 1/2⟩ : V3 Rat) exParams.bMin exParams.bMax = true := by decide +kernel
  have hbufs : s.bufs.flatten.length = 1 := by
    have h1' := h1
    simp only [h, lhRun, lhStep, LHState.addParticle, e1, Option.map_some, Option.some.injEq, Prod.mk.injEq,
      Bool.true_eq_false, if_false] at h1'
    rw [← h1'.1]
    decide +kernel
  have hlen := h2.length_eq
  rw [hw, List.length_append, hbufs] at hlen
  have hl : l = [] := List.length_eq_zero_iff.1 (by simpa using hlen)
  rw [h3, hl]; rfl

/-- The particle that left the box through the upper x face. -/
def leftParticle : Particle := ⟨1, ⟨21/20, 1/2, 1/2⟩, .owned⟩

/-- A particle has left the box and `updateContainer` has handed it back while the neighbour lists were kept; it is marked as a dummy and
stays in its place. DirectSum and Octree still apply the code to it, although only owned particles are asked for. -/
theorem C111_violated_dummies :
    (markLeaving exParams leftParticle).own = .dummy ∧
    dsReduce ibOwned none countParticle [[markLeaving exParams leftParticle], [], [], [], [], [], []] 0 = .ok 1 ∧
    otReduce ⟨⟨⟨0, 0, 0⟩, ⟨1, 1, 1⟩⟩, 1⟩ ⟨.leaf [markLeaving exParams leftParticle], .leaf [], 1, 0⟩ ibOwned none countParticle 0 = .ok 1 := by
  have hm : markLeaving exParams leftParticle = ⟨1, ⟨21/20, 1/2, 1/2⟩, .dummy⟩ := by decide +kernel
  rw [hm]
  exact ⟨rfl, rfl, rfl⟩

/-- Nine particles of the lower corner and nine of the upper: more than a leaf may hold. -/
def crowd : List Particle :=
  (List.range 9).map (fun i => ⟨i, ⟨1/2, 1/2, 1/2⟩, .owned⟩) ++ (List.range 9).map fun i => ⟨i + 9, ⟨39/20, 1/2, 1/2⟩, .owned⟩

/-- Moves the particles of the upper corner by a tenth of the interaction length, into the other half of the box. -/
def crowdMoves (p : Particle) : Particle := if 9 ≤ p.id then { p with pos := ⟨41/20, 1/2, 1/2⟩ } else p

/-- The octree skips leaves whose boxes do not touch the region, without a margin for particles that moved since they were sorted in: nine of
the eighteen particles have moved by a tenth of the interaction length and are inside of the region now, but none of them is visited. -/
theorem C111_violated_octree_region :
    let cfg : OTCfg := ⟨⟨⟨0, 0, 0⟩, ⟨4, 4, 4⟩⟩, 1⟩
    let s := crowd.foldl (OTState.add cfg) OTState.empty
    let s' : OTState := { s with owned := s.owned.map crowdMoves }
    ((collectAll s'.owned).filter fun p => wanted ibOwned p.own && decide (InBox p.pos ⟨2, 0, 0⟩ ⟨4, 1, 1⟩)).length = 9 ∧
    otReduce cfg s' ibOwned (some (⟨2, 0, 0⟩, ⟨4, 1, 1⟩)) countParticle 0 = .ok 0 := by
  intro cfg s s'
  constructor <;> decide +kernel

/-- The theorem for LinkedCells applies to the example container: two of its four particles are owned. -/
example : lcReduce exBlock ibOwned countParticle exCells 0 = .ok 2 := by
  rw [(C111_linkedCells (exStorage [] (by simp) (by simp)) (behavior := ibOwned) (by decide)).2]
  decide +kernel

theorem exBlock_few : exBlock.numCells < 2 ^ 60 - 1 := by
  obtain ⟨h1, h2, h3, -⟩ := exBlock_dim
  unfold CellBlock.numCells; rw [h1, h2, h3]; decide

/-- Regions: of the particles in the middle cell, one is inside of the region. -/
example : ∃ l : List Particle, l.Perm [⟨7, ⟨21/20, 1/2, 1/2⟩, .owned⟩] ∧
    lcReduceInRegion exBlock (1/10) ibOwned ⟨1, 0, 0⟩ ⟨2, 2, 2⟩ countParticle (oneCell 13 [⟨7, ⟨21/20, 1/2, 1/2⟩, .owned⟩, exOwned]) 0 =
      .ok (l.foldl countParticle 0) := by
  have hs := oneCell_storage (k := 13) (by decide) [⟨7, ⟨21/20, 1/2, 1/2⟩, .owned⟩, exOwned] (by simp) (by simp)
    (by simp [exOwned])
  have hm : MovedAtMost exBlock (1/10) (oneCell 13 [⟨7, ⟨21/20, 1/2, 1/2⟩, .owned⟩, exOwned]) := by
    intro c p hp
    rw [oneCell_get (by decide)] at hp
    split at hp
    · rename_i hc
      have e1 : ⌊(19/20 : Rat)⌋ = 0 := Int.floor_eq_iff.2 ⟨by norm_num, by norm_num⟩
      have e2 : ⌊(1/2 : Rat)⌋ = 0 := Int.floor_eq_iff.2 ⟨by norm_num, by norm_num⟩
      simp only [List.mem_cons, List.not_mem_nil, or_false] at hp
      rcases hp with rfl | rfl
      · refine ⟨⟨19/20, 1/2, 1/2⟩, ?_, ?_, ?_, ?_⟩
        · have := exBlock_flat ⟨19/20, 1/2, 1/2⟩
          simp only [e1, e2] at this
          omega
        all_goals simp only; rw [abs_le]; norm_num
      · refine ⟨⟨1/2, 1/2, 1/2⟩, ?_, ?_, ?_, ?_⟩
        · have := exBlock_flat ⟨1/2, 1/2, 1/2⟩
          simp only [e2] at this
          omega
        all_goals simp only [exOwned]; rw [abs_le]; norm_num
    · cases hp
  obtain ⟨-, l, h1, h2⟩ := C111_linkedCells_region ⟨0, 0, 0⟩ ⟨1, 1, 1⟩ 1 1 (1/10) exGood (by norm_num) ⟨1, 0, 0⟩ ⟨2, 2, 2⟩ (by norm_num)
    (by norm_num) (by norm_num) exBlock_few _ [] hs hm ibOwned (by decide)
  exact ⟨l, h1.trans (List.Perm.of_eq (by decide +kernel)), h2 _ _ _⟩

/-- DirectSum with an owned and a halo particle. -/
example : dsReduce ibOwnedOrHalo none countParticle [[exOwned], [exHalo], [], [], [], [], []] 0 = .ok 2 := by
  rw [(C111_directSum_partial ibOwnedOrHalo (by decide) (by decide) none [exOwned] [[exHalo], [], [], [], [], []] (by simp [exOwned])
    (by simp [exHalo]) (by intro _ _; simp [exOwned, exHalo])).2]
  decide +kernel

/-- An octree with two owned particles and a halo particle: the owned ones are inside of the region. -/
example : otReduce ⟨⟨⟨0, 0, 0⟩, ⟨4, 4, 4⟩⟩, 1⟩ ⟨.leaf [exOwned, exOwned2], .leaf [exHalo], 2, 1⟩ ibOwnedOrHalo (some (⟨0, 0, 0⟩, ⟨1, 1, 1⟩)) countParticle 0 = .ok 2 := by
  rw [(C111_octree_partial _ _ ibOwnedOrHalo (by decide) (by decide) countParticle 0).2 _ _ ?_ ?_]
  · decide +kernel
  · intro p hp; exact ⟨p.pos, by simp at hp; rcases hp with rfl | rfl <;> (unfold InBox; norm_num [exOwned, exOwned2]), by simp, by simp, by simp⟩
  · intro p hp; exact ⟨p.pos, by simp at hp; subst hp; unfold InBox; norm_num [exHalo, OTCfg.haloBox, Box.grow], by simp, by simp, by simp⟩

end Verif
