import Verif.Props.C16
import Verif.Props.C07
/-!
# C14 — lc_sliced and lc_sliced_balanced: the lock protocol is race free and cannot deadlock

`SlicedReach` ranges over all interleavings of all slices, whichever thread they run on. While `process d` is the next
action of a slice, that slice may be working on the cells of layer `d`.
-/
namespace Verif
open Spec

/-- The slices the two lock based traversals use, with their minimum thickness `ov + 1`
(SlicedBasedTraversal.h:98-103). -/
def LockSlices (forward : Bool) (n ov : Nat) (thick : List Nat) : Prop :=
  thick = sliceThickness forward n (ov + 1) ov ∨
    ∃ loads threads, 1 ≤ threads ∧ balancedSliceThickness loads forward n (ov + 1) ov threads = some thick

theorem LockSlices.slices {forward : Bool} {n ov : Nat} {thick : List Nat} (h : LockSlices forward n ov thick)
    (hn : ov + 1 ≤ n) : SlicesOf forward n (ov + 1) ov thick := by
  rcases h with rfl | ⟨loads, threads, ht, h⟩
  · exact sliceThickness_slices (by omega) hn
  · obtain ⟨t, h1, h2⟩ := balancedSliceThickness_slices (loads := loads) (forward := forward) (ov := ov) hn ht
    rw [h] at h1
    cases h1
    exact h2

/-- Two slices never work on layers at most an overlap apart at the same time. (A base cell of layer `d` only touches
the layers `d .. d + ov`, or `d - ov/2 .. d + ov/2` for traversals that look both ways.) -/
theorem C14_lock_mutual_exclusion (forward : Bool) (n ov : Nat) (thick : List Nat) (hn : ov + 1 ≤ n)
    (hth : LockSlices forward n ov thick) (σ : SlicedState) (hr : SlicedReach ov thick σ)
    (s s' d e : Nat) (r r' : List SliceAct) (hne : s ≠ s')
    (h : σ.rest s = .process d :: r) (h' : σ.rest s' = .process e :: r') : ov < axisDist d e := by
  have hg := (hth.slices hn).good
  have hi := slicedInv_reach hg hr
  unfold axisDist
  rcases Nat.lt_or_gt_of_ne hne with hlt | hlt
  · have := slicedInv_exclusion_lt hg hi hlt h h'
    rw [if_pos (by omega)]
    omega
  · have := slicedInv_exclusion_lt hg hi hlt h' h
    rw [if_neg (by omega)]
    omega

/-- Locks are used correctly: a slice only releases locks it owns, never waits for a lock it owns itself, and all lock
indices are within the allocated `(numSlices - 1) * ov` locks. -/
theorem C14_lock_discipline (forward : Bool) (n ov : Nat) (thick : List Nat) (hn : ov + 1 ≤ n)
    (hth : LockSlices forward n ov thick) (σ : SlicedState) (hr : SlicedReach ov thick σ) (s l : Nat) (r : List SliceAct) :
    (σ.rest s = .unlock l :: r → σ.owner l = some s) ∧
    (σ.rest s = .lock l :: r → σ.owner l ≠ some s ∧ l < (thick.length - 1) * ov) := by
  have hg := (hth.slices hn).good
  have hi := slicedInv_reach hg hr
  constructor
  · intro h
    rcases (hi.position hg h).2 with ⟨-, k, -, e, -⟩ | ⟨-, k, -, -, e, -⟩ | ⟨k, -, e, -⟩ | ⟨m, e, hm⟩
    · cases e
    · cases e
    · cases e
    · cases e
      exact hm
  · intro h
    obtain ⟨hs, p⟩ := hi.position hg h
    have bound : ∀ a b i : Nat, i < ov → a + 1 ≤ b → a * ov + i < b * ov := by
      intro a b i h1 h2
      have := Nat.mul_le_mul_right ov h2
      rw [Nat.succ_mul] at this
      omega
    rcases p with ⟨h1, k, hk, e, h2⟩ | ⟨h1, k, hk, hk', e, h2⟩ | ⟨k, -, e, -⟩ | ⟨m, e, hm⟩
    · cases e
      refine ⟨fun hc => ?_, bound _ _ _ hk (by omega)⟩
      obtain ⟨i, hi1, hi2⟩ := (h2 _).1 hc
      omega
    · cases e
      refine ⟨fun hc => ?_, bound _ _ _ (by omega) (by omega)⟩
      rcases (h2 _).1 hc with ⟨h3, -, i, -, h4, h5⟩ | ⟨-, -, i, h4, h5⟩
      · have := mul_pred s ov h3; omega
      · omega
    · cases e
    · cases e

/-- No deadlock, for any number of threads: let `A` be the slices that currently have a thread, which includes every
slice that has been started and is not finished. If one of them is unfinished, one of them can make a step. -/
theorem C14_no_deadlock (forward : Bool) (n ov : Nat) (thick : List Nat) (hn : ov + 1 ≤ n)
    (hth : LockSlices forward n ov thick) (σ : SlicedState) (hr : SlicedReach ov thick σ) (A : Nat → Prop)
    (hA : ∀ s < thick.length, σ.rest s ≠ sliceProgram ov thick s → σ.rest s ≠ [] → A s)
    (s : Nat) (hs : A s) (hsr : σ.rest s ≠ []) : ∃ s' σ', A s' ∧ SlicedStep s' σ σ' := by
  have hg := (hth.slices hn).good
  have hi := slicedInv_reach hg hr
  by_contra hno
  refine slicedInv_no_deadlock hg hi A hA (fun s' hs' hr' => ?_) hs hsr
  obtain ⟨x, rx, hx⟩ := List.exists_cons_of_ne_nil hr'
  cases x with
  | process d => exact absurd ⟨s', _, hs', SlicedStep.process hx⟩ hno
  | unlock l => exact absurd ⟨s', _, hs', SlicedStep.unlock hx⟩ hno
  | lock l =>
    cases ho : σ.owner l with
    | none => exact absurd ⟨s', _, hs', SlicedStep.lock hx ho⟩ hno
    | some o => exact ⟨l, rx, o, hx, ho⟩

/-- Number of actions that remain to be done. -/
def remaining (num : Nat) (σ : SlicedState) : Nat := ((List.range num).map fun s => (σ.rest s).length).sum

/-- Every step reduces the number of remaining actions, so that every execution ends. -/
theorem C14_terminates (forward : Bool) (n ov : Nat) (thick : List Nat) (hn : ov + 1 ≤ n)
    (hth : LockSlices forward n ov thick) (σ σ' : SlicedState) (hr : SlicedReach ov thick σ) (s : Nat)
    (st : SlicedStep s σ σ') : remaining thick.length σ' + 1 = remaining thick.length σ := by
  have hg := (hth.slices hn).good
  have hi := slicedInv_reach hg hr
  have key : ∃ x r, σ.rest s = x :: r ∧ σ'.rest = Function.update σ.rest s r := by
    cases st with
    | lock h _ => exact ⟨_, _, h, rfl⟩
    | process h => exact ⟨_, _, h, rfl⟩
    | unlock h => exact ⟨_, _, h, rfl⟩
  obtain ⟨x, r, h, e⟩ := key
  have hs := (hi.position hg h).1
  unfold remaining
  rw [e]
  generalize thick.length = num at hs
  have h0 : ∀ k ≤ s, ((List.range k).map fun s' => ((Function.update σ.rest s r) s').length).sum =
      ((List.range k).map fun s' => (σ.rest s').length).sum := by
    intro k hk
    congr 1
    apply List.map_congr_left
    intro a ha
    rw [List.mem_range] at ha
    rw [Function.update_of_ne (by omega)]
  induction num with
  | zero => omega
  | succ m ih =>
    rw [List.range_succ, List.map_append, List.map_append, List.sum_append, List.sum_append]
    rcases Nat.lt_or_ge s m with h1 | h1
    · have := ih h1
      simp only [List.map_cons, List.map_nil, List.sum_cons, List.sum_nil]
      rw [Function.update_of_ne (by omega : m ≠ s)]
      omega
    · have : m = s := by omega
      subst this
      rw [h0 m (le_refl _)]
      simp only [List.map_cons, List.map_nil, List.sum_cons, List.sum_nil, Function.update_self, h, List.length_cons]
      omega

/-- When all slices are finished, all locks are free again. -/
theorem C14_all_locks_released (forward : Bool) (n ov : Nat) (thick : List Nat) (hn : ov + 1 ≤ n)
    (hth : LockSlices forward n ov thick) (σ : SlicedState) (hr : SlicedReach ov thick σ)
    (hdone : ∀ s, σ.rest s = []) (l : Nat) : σ.owner l = none := by
  have hg := (hth.slices hn).good
  have hi := slicedInv_reach hg hr
  cases ho : σ.owner l with
  | none => rfl
  | some s => exact absurd ho (hi.done hg (hdone s) l)

/-- The calls of the lock based traversals are exactly those of `lc_c08`, each equally often. -/
theorem lcSliced_perm (dims : V3 Nat) (cl : V3 Rat) (il : Rat) (thick : List Nat)
    (hn : (overlapOf il cl).toNat.get (longestAxis dims) + 1 ≤ dims.get (longestAxis dims))
    (hth : LockSlices true (dims.get (longestAxis dims)) ((overlapOf il cl).toNat.get (longestAxis dims)) thick) :
    (lcSliced dims cl il thick).flatten.flatten.Perm (lcC08 dims cl il).flatten.flatten := by
  have hsum := (hth.slices hn).sum (by omega)
  have e : [(List.range thick.length).map fun slice =>
      (processed (sliceProgram ((overlapOf il cl).toNat.get (longestAxis dims)) thick slice)).flatMap
        (layerBases true dims (overlapOf il cl).toNat)].flatten.flatten =
      (List.range (dims.get (longestAxis dims) - (overlapOf il cl).toNat.get (longestAxis dims))).flatMap
        (layerBases true dims (overlapOf il cl).toNat) := by
    rw [← hsum, ← slices_layers, List.flatMap_assoc]
    simp only [processed_sliceProgram, List.flatten_cons, List.flatten_nil, List.append_nil]
    rw [← List.flatMap_def]
  unfold lcSliced
  simp only
  refine packOps_perm ?_ (fun c => ?_)
  · rw [e]; exact nodup_layers _ _ _
  · rw [e]; exact mem_layers

/-- `lc_sliced` and `lc_sliced_balanced` process every pair of different cells that may contain interacting particles and
are not both halo cells exactly once. -/
theorem C14_lc_sliced_pair_exactly_once (dims : V3 Nat) (cl : V3 Rat) (il : Rat) (hw : Nat) (thick : List Nat)
    (hil : 0 < il) (hx : 0 < cl.x) (hy : 0 < cl.y) (hz : 0 < cl.z)
    (hn : (overlapOf il cl).toNat.get (longestAxis dims) + 1 ≤ dims.get (longestAxis dims))
    (hth : LockSlices true (dims.get (longestAxis dims)) ((overlapOf il cl).toNat.get (longestAxis dims)) thick)
    (hox : (overlapOf il cl).x ≤ hw) (hoy : (overlapOf il cl).y ≤ hw) (hoz : (overlapOf il cl).z ≤ hw)
    (a b : V3 Nat) (ha : InGrid a dims) (hb : InGrid b dims) (hab : a ≠ b)
    (hov : WithinOverlap (overlapOf il cl).toNat a b) (hgap : cellGapSq cl a b ≤ il * il)
    (hh : ¬ (IsHalo hw dims a ∧ IsHalo hw dims b)) :
    timesPair (lcSliced dims cl il thick).flatten.flatten (threeToOneD a dims) (threeToOneD b dims) = 1 := by
  rw [← C07_lc_c08_pair_exactly_once dims cl il hw hil hx hy hz hox hoy hoz a b ha hb hab hov hgap hh]
  exact (lcSliced_perm dims cl il thick hn hth).countP_eq _

/-- Every cell that is not a halo cell is processed with itself exactly once. -/
theorem C14_lc_sliced_self_exactly_once (dims : V3 Nat) (cl : V3 Rat) (il : Rat) (hw : Nat) (thick : List Nat)
    (hil : 0 < il) (hx : 0 < cl.x) (hy : 0 < cl.y) (hz : 0 < cl.z)
    (hn : (overlapOf il cl).toNat.get (longestAxis dims) + 1 ≤ dims.get (longestAxis dims))
    (hth : LockSlices true (dims.get (longestAxis dims)) ((overlapOf il cl).toNat.get (longestAxis dims)) thick)
    (hox : (overlapOf il cl).x ≤ hw) (hoy : (overlapOf il cl).y ≤ hw) (hoz : (overlapOf il cl).z ≤ hw)
    (a : V3 Nat) (ha : InGrid a dims) (hh : ¬ IsHalo hw dims a) :
    timesSelf (lcSliced dims cl il thick).flatten.flatten (threeToOneD a dims) = 1 := by
  unfold timesSelf
  rw [(lcSliced_perm dims cl il thick hn hth).countP_eq]
  exact C07_lc_c08_self_exactly_once dims cl il hw hil hx hy hz hox hoy hoz a ha hh

/-- No pair of cells is processed twice. -/
theorem C14_lc_sliced_pair_at_most_once (dims : V3 Nat) (cl : V3 Rat) (il : Rat) (thick : List Nat)
    (hil : 0 < il) (hx : 0 < cl.x) (hy : 0 < cl.y) (hz : 0 < cl.z)
    (hn : (overlapOf il cl).toNat.get (longestAxis dims) + 1 ≤ dims.get (longestAxis dims))
    (hth : LockSlices true (dims.get (longestAxis dims)) ((overlapOf il cl).toNat.get (longestAxis dims)) thick)
    (a b : V3 Nat) (ha : InGrid a dims) (hb : InGrid b dims) (hab : a ≠ b) :
    timesPair (lcSliced dims cl il thick).flatten.flatten (threeToOneD a dims) (threeToOneD b dims) ≤ 1 := by
  unfold timesPair
  rw [(lcSliced_perm dims cl il thick hn hth).countP_eq]
  exact C07_lc_c08_pair_at_most_once dims cl il hil hx hy hz a b ha hb hab

/-- A base cell of the layers lies inside the `lc_c08` base cells. -/
theorem layer_base_bounds {dims ov : V3 Nat} {d : Nat} {c : V3 Nat} (hc : c ∈ layerBases true dims ov d)
    (hd : d < dims.get (longestAxis dims) - ov.get (longestAxis dims)) :
    c.x < dims.x - ov.x ∧ c.y < dims.y - ov.y ∧ c.z < dims.z - ov.z :=
  c08Bases_mem.1 (mem_layers.1 (List.mem_flatMap.2 ⟨d, List.mem_range.2 hd, hc⟩))

/-- Layers more than an overlap apart have disjoint footprints. -/
theorem layers_disjoint {dims : V3 Nat} {cl : V3 Rat} {il : Rat} (hp : C08Pos cl il) {d e : Nat}
    (hd : d < dims.get (longestAxis dims) - (overlapOf il cl).toNat.get (longestAxis dims))
    (he : e < dims.get (longestAxis dims) - (overlapOf il cl).toNat.get (longestAxis dims))
    (hde : (overlapOf il cl).toNat.get (longestAxis dims) < axisDist d e)
    {b b' : V3 Nat} (hb : b ∈ layerBases true dims (overlapOf il cl).toNat d)
    (hb' : b' ∈ layerBases true dims (overlapOf il cl).toNat e) {op op' : CellOp}
    (hop : op ∈ c08ProcessBaseCell dims cl il b) (hop' : op' ∈ c08ProcessBaseCell dims cl il b') :
    ∀ i ∈ touched op, i ∉ touched op' := by
  intro i hi hi'
  obtain ⟨c, hcg, rfl, hcb⟩ := c08_footprint hp (layer_base_bounds hb hd) hop hi
  obtain ⟨c', hcg', e1, hcb'⟩ := c08_footprint hp (layer_base_bounds hb' he) hop' hi'
  have := flat_inj hcg hcg' (by exact_mod_cast e1)
  subst this
  have k1 := (mem_layerBases.1 hb).1
  have k2 := (mem_layerBases.1 hb').1
  unfold axisDist at hde
  generalize (overlapOf il cl).toNat = o at *
  have ha := (axes_spec dims).1.1
  generalize longestAxis dims = a at *
  have ha : a = 0 ∨ a = 1 ∨ a = 2 := by omega
  rcases ha with rfl | rfl | rfl <;> (simp only [V3.get] at *; simp at k1 k2 hde; split at hde <;> omega)

/-- Race freedom at cell level: while two slices are processing layers, the cell functor calls of the two layers touch
no common cell. -/
theorem C14_lc_sliced_race_free (dims : V3 Nat) (cl : V3 Rat) (il : Rat) (thick : List Nat)
    (hil : 0 < il) (hx : 0 < cl.x) (hy : 0 < cl.y) (hz : 0 < cl.z)
    (hn : (overlapOf il cl).toNat.get (longestAxis dims) + 1 ≤ dims.get (longestAxis dims))
    (hth : LockSlices true (dims.get (longestAxis dims)) ((overlapOf il cl).toNat.get (longestAxis dims)) thick)
    (σ : SlicedState) (hr : SlicedReach ((overlapOf il cl).toNat.get (longestAxis dims)) thick σ)
    (s s' d e : Nat) (r r' : List SliceAct) (hne : s ≠ s')
    (h : σ.rest s = .process d :: r) (h' : σ.rest s' = .process e :: r')
    (b b' : V3 Nat) (hb : b ∈ layerBases true dims (overlapOf il cl).toNat d)
    (hb' : b' ∈ layerBases true dims (overlapOf il cl).toNat e) (op op' : CellOp)
    (hop : op ∈ c08ProcessBaseCell dims cl il b) (hop' : op' ∈ c08ProcessBaseCell dims cl il b') :
    ∀ i ∈ touched op, i ∉ touched op' := by
  have hg := (hth.slices hn).good
  have hi := slicedInv_reach hg hr
  have hsum := (hth.slices hn).sum (by omega)
  have inRange : ∀ {s d r}, σ.rest s = .process d :: r → d < thick.sum := by
    intro s d r h
    obtain ⟨hs, p⟩ := hi.position hg h
    rcases p with ⟨-, k, -, e, -⟩ | ⟨-, k, -, -, e, -⟩ | ⟨k, hk, e, -⟩ | ⟨m, e, hm⟩
    · cases e
    · cases e
    · cases e
      have h1 := sliceStart_succ hs
      have h2 := sliceStart_mono (thick := thick) (s := s + 1) (s' := thick.length) (by omega) (le_refl _)
      have h3 : sliceStart thick thick.length = thick.sum := by simp [sliceStart]
      omega
    · cases e
  have hd := inRange h
  have he := inRange h'
  rw [hsum] at hd he
  exact layers_disjoint ⟨hil, hx, hy, hz⟩ hd he
    (C14_lock_mutual_exclusion true _ _ thick hn hth σ hr s s' d e r r' hne h h') hb hb' hop hop'

-- 9×6×6 cells of length 1 with interaction length 1: three slices along x
example : LockSlices true ((⟨9, 6, 6⟩ : V3 Nat).get (longestAxis ⟨9, 6, 6⟩)) 1 [3, 2, 2, 1] :=
  Or.inl (by decide +kernel)
-- the hypotheses of mutual exclusion are met by a reachable state in which two slices are processing
example : ∃ σ, SlicedReach 1 [3, 2, 1] σ ∧ σ.rest 0 = .process 0 :: (σ.rest 0).tail ∧
    σ.rest 2 = .process 5 :: (σ.rest 2).tail := by
  have h2 : (slicedInit 1 [3, 2, 1]).rest 2 = .lock 1 :: [.process 5, .unlock 1] := by decide +kernel
  refine ⟨_, SlicedReach.step (s := 2) SlicedReach.init (SlicedStep.lock h2 rfl), ?_, ?_⟩ <;> decide +kernel
example : timesPair (lcSliced ⟨9, 6, 6⟩ ⟨1, 1, 1⟩ 1 [3, 2, 2, 1]).flatten.flatten
    (threeToOneD ⟨1, 1, 1⟩ ⟨9, 6, 6⟩) (threeToOneD ⟨2, 2, 2⟩ ⟨9, 6, 6⟩) = 1 :=
  C14_lc_sliced_pair_exactly_once ⟨9, 6, 6⟩ ⟨1, 1, 1⟩ 1 1 [3, 2, 2, 1] (by norm_num) (by norm_num) (by norm_num) (by norm_num)
    (by decide +kernel) (Or.inl (by decide +kernel)) (by decide +kernel) (by decide +kernel) (by decide +kernel)
    ⟨1, 1, 1⟩ ⟨2, 2, 2⟩ (by simp [InGrid]) (by simp [InGrid]) (by decide)
    (by unfold WithinOverlap; decide +kernel) (by norm_num [cellGapSq, axisGap, axisDist]) (by simp [IsHalo])

end Verif
