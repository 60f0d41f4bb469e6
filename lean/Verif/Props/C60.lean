import Verif.Lemmas.VarVerletLists
import Verif.Props.C08
import Verif.Props.C59
/-!
# C60 — Verlet lists as they were built

The container VarVerletLists keeps the neighbour lists per colour and thread of the traversal that built them, and later lets each thread
process one of these lists. Whatever base cells the threads happened to get while the lists were built, no list out of range is accessed, every
neighbour is used exactly once while the lists are kept, and lists processed at the same time do not update the same particle.
-/
namespace Verif
open Spec

/-- Which base cells of which colour the threads processed: all of the colour's base cells, each once, with at most `maxThreads` threads. -/
def Distribution (maxThreads : Nat) (colours : List (List (V3 Nat))) (sched : List (List (List (V3 Nat)))) : Prop :=
  List.Forall₂ (fun colour threads => threads.length ≤ maxThreads ∧ threads.flatten.Perm colour) colours sched

section
variable {P : Type} [DecidableEq P] {bMin bMax : V3 Rat} {cutoff skin csf il : Rat} {pos₀ pos : P → V3 Rat} {own₀ own : P → Ownership}
  {f : CellFunctorCfg P} {cells : List (List P)} {maxThreads : Nat} {sched : List (List (List (V3 Nat)))} {iter : VVLMap P → VVLMap P}

theorem Distribution.flatten {colours : List (List (V3 Nat))} (h : Distribution maxThreads colours sched) :
    sched.flatten.flatten.Perm colours.flatten := by
  unfold Distribution at h
  induction h with
  | nil => simp
  | cons h _ ih =>
    rw [List.flatten_cons, List.flatten_append, List.flatten_cons]
    exact h.2.append ih

/-- There are eight colours. -/
theorem c08_colours (hbox : GoodBox bMin bMax il csf) (hcsf : 1 ≤ csf) :
    (c08Bases (CellBlock.rebuild id bMin bMax il csf).dims (overlapOf il (CellBlock.rebuild id bMin bMax il csf).cellLength).toNat).length = 8 := by
  rw [overlap_one_of_csf hbox hcsf]
  unfold c08Bases colorTraversal
  rw [List.length_map, List.length_range]
  rfl

/-- C60. Building the lists never accesses a list out of range. -/
theorem C60_build_in_range (hbox : GoodBox bMin bMax il csf) (hcsf : 1 ≤ csf)
    (hd : Distribution maxThreads (c08Bases (CellBlock.rebuild id bMin bMax il csf).dims
      (overlapOf il (CellBlock.rebuild id bMin bMax il csf).cellLength).toNat) sched) :
    (vvlBuild maxThreads pos₀ (CellBlock.rebuild id bMin bMax il csf) il f cells sched).isSome = true := by
  unfold vvlBuild
  rw [if_pos]
  · rfl
  · refine ⟨?_, ?_⟩
    · rw [← hd.length_eq, c08_colours hbox hcsf]
    · intro threads ht
      have := List.forall₂_iff_get.1 hd
      obtain ⟨k, hk, rfl⟩ := List.getElem_of_mem ht
      exact (this.2 k (by rw [this.1]; exact hk) hk).1

theorem vvlBuild_some {lists : List (List (VVLMap P))} {blk : CellBlock} (h : vvlBuild maxThreads pos₀ blk il f cells sched = some lists) :
    (sched.length ≤ 8 ∧ ∀ threads ∈ sched, threads.length ≤ maxThreads) ∧
    lists = (List.range 8).map fun colour => (List.range maxThreads).map fun thread =>
      vvlThread pos₀ blk il f cells ((sched.getD colour []).getD thread []) := by
  unfold vvlBuild at h
  split at h
  · rename_i hc
    exact ⟨hc, (Option.some.inj h).symm⟩
  · cases h

theorem c08_run_calls (hbox : GoodBox bMin bMax il csf) (hf : FunctorFor .c08 pos₀ il f)
    (hs : SortedIn (CellBlock.rebuild id bMin bMax il csf) pos₀ cells) : ∀ op ∈ (lcC08 (CellBlock.rebuild id bMin bMax il csf).dims
      (CellBlock.rebuild id bMin bMax il csf).cellLength il).flatten.flatten,
    ∀ c ∈ f.op (lcCells (CellBlock.rebuild id bMin bMax il csf) cells) op,
    c.p ∈ cells.flatten ∧ c.q ∈ cells.flatten ∧ c.p ≠ c.q ∧ c.newton3 = f.newton3 := by
  have h0 : il + 0 = il := add_zero il
  have hcalls := fun c => C51_linked_cells_calls bMin bMax il 0 csf (by rw [h0]; exact hbox) .c08 pos₀ pos₀ f cells c
  simp only [h0] at hcalls
  intro op hop c hc
  exact hcalls c trivial hf hs (List.mem_flatMap.2 ⟨op, hop, hc⟩)

/-- The calls made with one thread's list. -/
theorem vvlThread_calls {blk : CellBlock} {bases : List (V3 Nat)}
    (hcalls : ∀ b ∈ bases, ∀ op ∈ c08ProcessBaseCell blk.dims blk.cellLength il b, ∀ c ∈ f.op (lcCells blk cells) op,
      c.p ∈ cells.flatten ∧ c.q ∈ cells.flatten ∧ c.p ≠ c.q ∧ c.newton3 = f.newton3) (hiter : ∀ m, (iter m).Perm m) (soa : Bool) :
    (vlpList soa f.newton3 cells.flatten cells (iter (vvlThread pos₀ blk il f cells bases))).Perm
      (((bases.flatMap (c08ProcessBaseCell blk.dims blk.cellLength il)).flatMap (f.op (lcCells blk cells))).filter
        fun c => distSq (pos₀ c.p) (pos₀ c.q) < il * il) := by
  have hcalls : ∀ c ∈ (bases.flatMap (c08ProcessBaseCell blk.dims blk.cellLength il)).flatMap (f.op (lcCells blk cells)),
      c.p ∈ cells.flatten ∧ c.q ∈ cells.flatten ∧ c.p ≠ c.q ∧ c.newton3 = f.newton3 := by
    intro c hc
    obtain ⟨op, hop, hc⟩ := List.mem_flatMap.1 hc
    obtain ⟨b, hb, hop⟩ := List.mem_flatMap.1 hop
    exact hcalls b hb op hop c hc
  unfold vvlThread
  generalize (bases.flatMap (c08ProcessBaseCell blk.dims blk.cellLength il)).flatMap (f.op (lcCells blk cells)) = calls at *
  obtain ⟨-, h⟩ := vvlFold_spec pos₀ il calls (m := []) (by simp)
  have h := (vlcEntries_perm (hiter (calls.foldl (vvlGenerate pos₀ il) []))).trans h
  rw [show vlcEntries ([] : VVLMap P) = [] from rfl, List.nil_append] at h
  rw [vlpList_eq]
  · refine (h.map _).trans (List.Perm.of_eq ?_)
    rw [List.map_map]
    conv_rhs => rw [← List.map_id (calls.filter _)]
    apply List.map_congr_left
    intro c hc
    have := (hcalls c (List.mem_of_mem_filter hc)).2.2.2
    rcases c with ⟨p, q, n3⟩
    simp only [Function.comp, id] at this ⊢
    rw [this]
  · intro e he
    obtain ⟨c, hc, rfl⟩ := List.mem_map.1 (h.mem_iff.1 he)
    have := hcalls c (List.mem_of_mem_filter hc)
    exact ⟨this.1, this.2.1⟩

theorem flatten_flatten_map {X Y : Type} (l : List X) (g : X → List (List Y)) : (l.map g).flatten.flatten = l.flatMap fun x => (g x).flatten := by
  induction l with
  | nil => rfl
  | cons x l ih => rw [List.map_cons, List.flatten_cons, List.flatten_append, ih, List.flatMap_cons]

theorem lcC08_bases (dims : V3 Nat) (cl : V3 Rat) (il : Rat) :
    (lcC08 dims cl il).flatten.flatten = (c08Bases dims (overlapOf il cl).toNat).flatten.flatMap (c08ProcessBaseCell dims cl il) := by
  unfold lcC08
  rw [← List.map_flatten, ← List.flatMap_def]

theorem Distribution.base_mem {blk : CellBlock} (hd : Distribution maxThreads (c08Bases blk.dims (overlapOf il blk.cellLength).toNat) sched)
    (k t : Nat) : ∀ b ∈ (sched.getD k []).getD t [], ∀ op ∈ c08ProcessBaseCell blk.dims blk.cellLength il b,
      op ∈ (lcC08 blk.dims blk.cellLength il).flatten.flatten := by
  intro b hb op hop
  rw [lcC08_bases]
  refine List.mem_flatMap.2 ⟨b, hd.flatten.mem_iff.1 ?_, hop⟩
  have h1 : b ∈ (sched.getD k []).flatten := mem_flatten_getD'.2 ⟨_, hb⟩
  rw [List.mem_flatten] at h1 ⊢
  obtain ⟨l, hl, hb⟩ := h1
  exact ⟨l, mem_flatten_getD'.2 ⟨_, hl⟩, hb⟩

/-- Everything that is called are the calls of `lc_c08` that go to neighbours. -/
theorem vvlCalls_perm (hbox : GoodBox bMin bMax il csf)
    (hd : Distribution maxThreads (c08Bases (CellBlock.rebuild id bMin bMax il csf).dims
      (overlapOf il (CellBlock.rebuild id bMin bMax il csf).cellLength).toNat) sched) (hiter : ∀ m, (iter m).Perm m)
    (hf : FunctorFor .c08 pos₀ il f) (hs : SortedIn (CellBlock.rebuild id bMin bMax il csf) pos₀ cells) (soa : Bool)
    {lists : List (List (VVLMap P))} (h : vvlBuild maxThreads pos₀ (CellBlock.rebuild id bMin bMax il csf) il f cells sched = some lists) :
    (vvlCalls soa f.newton3 iter cells.flatten cells lists).flatten.flatten.Perm
      ((f.run (lcCells (CellBlock.rebuild id bMin bMax il csf) cells) (LCTraversal.c08.ops (CellBlock.rebuild id bMin bMax il csf).dims
        (CellBlock.rebuild id bMin bMax il csf).cellLength il)).filter fun c => distSq (pos₀ c.p) (pos₀ c.q) < il * il) := by
  obtain ⟨⟨h8, ht⟩, rfl⟩ := vvlBuild_some h
  have hops := c08_run_calls hbox hf hs
  set blk := CellBlock.rebuild id bMin bMax il csf with hblk
  have hb := fun k t => hd.base_mem k t
  set F : List (V3 Nat) → List (PairCall P) := fun bases => ((bases.flatMap (c08ProcessBaseCell blk.dims blk.cellLength il)).flatMap
    (f.op (lcCells blk cells))).filter fun c => distSq (pos₀ c.p) (pos₀ c.q) < il * il with hF
  have e1 : (vvlCalls soa f.newton3 iter cells.flatten cells ((List.range 8).map fun colour => (List.range maxThreads).map fun thread =>
      vvlThread pos₀ blk il f cells ((sched.getD colour []).getD thread []))).flatten.flatten.Perm
      ((List.range 8).flatMap fun colour => (List.range maxThreads).flatMap fun thread => F ((sched.getD colour []).getD thread [])) := by
    unfold vvlCalls
    rw [flatten_flatten_map, List.flatMap_map]
    apply List.Perm.flatMap_left
    intro colour _
    rw [List.map_map, ← List.flatMap_def]
    apply List.Perm.flatMap_left
    intro thread _
    exact vvlThread_calls (fun b hb' op hop => hops op (hb colour thread b hb' op hop)) hiter soa
  refine e1.trans ?_
  have e2 : ((List.range 8).flatMap fun colour => (List.range maxThreads).flatMap fun thread => F ((sched.getD colour []).getD thread [])) =
      sched.flatMap fun threads => threads.flatMap F := by
    rw [← range_getD_flatMap_le sched 8 h8 (fun threads => threads.flatMap F) rfl]
    apply List.flatMap_congr
    intro colour _
    refine range_getD_flatMap_le _ _ ?_ F rfl
    rw [List.getD_eq_getElem?_getD]
    cases hc : sched[colour]? with
    | none => simp
    | some l => exact ht l (List.mem_of_getElem? hc)
  rw [e2]
  have e3 : (sched.flatMap fun threads => threads.flatMap F) = F sched.flatten.flatten := by
    have key : ∀ l : List (List (V3 Nat)), l.flatMap F = F l.flatten := by
      intro l
      induction l with
      | nil => rfl
      | cons x l ih =>
        rw [List.flatMap_cons, ih, List.flatten_cons, hF]
        simp only [List.flatMap_append, List.filter_append]
    have key2 : ∀ l : List (List (List (V3 Nat))), (l.flatMap fun threads => threads.flatMap F) = F l.flatten.flatten := by
      intro l
      induction l with
      | nil => rfl
      | cons x l ih => rw [List.flatMap_cons, ih, List.flatten_cons, ← key, ← key, List.flatMap_append]
    exact key2 sched
  rw [e3]
  unfold CellFunctorCfg.run
  simp only [LCTraversal.ops]
  rw [lcC08_bases]
  exact ((hd.flatten.flatMap_right _).flatMap_right _).filter _

theorem lc_c08_near_complete (hcut : 0 ≤ cutoff) (hskin : 0 ≤ skin) (hbox : GoodBox bMin bMax (cutoff + skin) csf)
    (hf : FunctorFor .c08 pos₀ (cutoff + skin) f) (hh : ∀ p, f.isHalo p = decide (own₀ p = .halo))
    (hs : SortedIn (CellBlock.rebuild id bMin bMax (cutoff + skin) csf) pos₀ cells)
    (hk : ListsKept bMin bMax skin true pos₀ pos own₀ own cells.flatten) {calls : List (PairCall P)}
    (hp : calls.Perm ((f.run (lcCells (CellBlock.rebuild id bMin bMax (cutoff + skin) csf) cells)
      (LCTraversal.c08.ops (CellBlock.rebuild id bMin bMax (cutoff + skin) csf).dims
        (CellBlock.rebuild id bMin bMax (cutoff + skin) csf).cellLength (cutoff + skin))).filter
      fun c => distSq (pos₀ c.p) (pos₀ c.q) < (cutoff + skin) * (cutoff + skin))) :
    CompleteCalls pos own cutoff cells.flatten calls := by
  have hil : 0 ≤ cutoff + skin := by linarith
  have h0 : (cutoff + skin) + 0 = cutoff + skin := add_zero _
  have hcalls := fun c => C51_linked_cells_calls bMin bMax (cutoff + skin) 0 csf (by rw [h0]; exact hbox) .c08 pos₀ pos₀ f cells c
  have honce := fun a b => C51_linked_cells_exactly_once bMin bMax (cutoff + skin) 0 csf hil (le_refl 0) (by rw [h0]; exact hbox) .c08
    pos₀ pos₀ f cells a b
  have hmost := fun a b => C51_linked_cells_at_most_once bMin bMax (cutoff + skin) 0 csf (by rw [h0]; exact hbox) .c08 pos₀ pos₀ f cells a b
  simp only [h0] at hcalls honce hmost
  have hmem : ∀ a b, timesReceived (f.run (lcCells (CellBlock.rebuild id bMin bMax (cutoff + skin) csf) cells) (LCTraversal.c08.ops
      (CellBlock.rebuild id bMin bMax (cutoff + skin) csf).dims (CellBlock.rebuild id bMin bMax (cutoff + skin) csf).cellLength
      (cutoff + skin))) a b ≠ 0 → a ∈ cells.flatten ∧ b ∈ cells.flatten ∧ a ≠ b := by
    intro a b hab
    obtain ⟨c, hc, hm⟩ := mem_contributions_calls hab
    obtain ⟨k1, k2, k3, -⟩ := hcalls c trivial hf hs hc
    rcases hm with ⟨rfl, rfl⟩ | ⟨-, rfl, rfl⟩
    · exact ⟨k1, k2, k3⟩
    · exact ⟨k2, k1, k3.symm⟩
  have hrec : ∀ a b, timesReceived calls a b = if distSq (pos₀ a) (pos₀ b) < (cutoff + skin) * (cutoff + skin) then
      timesReceived (f.run (lcCells (CellBlock.rebuild id bMin bMax (cutoff + skin) csf) cells) (LCTraversal.c08.ops
      (CellBlock.rebuild id bMin bMax (cutoff + skin) csf).dims (CellBlock.rebuild id bMin bMax (cutoff + skin) csf).cellLength
      (cutoff + skin))) a b else 0 := by
    intro a b
    rw [show timesReceived calls a b = _ from (contributions_perm hp).count_eq (a, b)]
    refine (timesReceived_filter _ (fun p q => decide (distSq (pos₀ p) (pos₀ q) < (cutoff + skin) * (cutoff + skin))) a b (.inr ?_)).trans ?_
    · rw [distSq_symm]
    · simp only [decide_eq_true_eq]
  refine ⟨?_, ?_, ?_⟩
  · intro a ha b hb hab hao hbo hd
    obtain ⟨o1, o2⟩ := hk.owned a ha hao
    have hd₀ := hk.near hcut hskin ha hb hd
    rw [hrec, if_pos hd₀]
    refine honce a b trivial hf hs ?_ ha hb hab ?_ o2 (le_of_lt hd₀)
    · intro p _
      simp [distSq]
    · rw [hh, o1]; rfl
  · intro a b
    rw [hrec]
    by_cases hab : a = b
    · by_contra hx
      split at hx
      · exact (hmem a b (by omega)).2.2 hab
      · omega
    · have := hmost a b trivial hf hs hab
      split <;> omega
  · intro a b hx
    rw [hrec] at hx
    split at hx
    · exact hmem a b hx
    · exact absurd rfl hx

/-- `computeInteractions` with VarVerletLists: building, using the lists, and the remainder traversal. -/
def vvlInteractions (maxThreads : Nat) (sched : List (List (List (V3 Nat)))) (iter : VVLMap P → VVLMap P) (pos₀ pos : P → V3 Rat)
    (own : P → Ownership) (blk : CellBlock) (cutoff skin : Rat)
    (f : CellFunctorCfg P) (soa : Bool) (cells pb hb : List (List P)) : Option (List (PairCall P)) :=
  (vvlBuild maxThreads pos₀ blk (cutoff + skin) f cells sched).map fun lists =>
    (vvlCalls soa f.newton3 iter cells.flatten cells lists).flatten.flatten ++ remainder2B pos own f.newton3 cutoff cells.flatten pb hb

variable {pb hb : List (List P)}

theorem vvl_complete (hcut : 0 ≤ cutoff) (hskin : 0 ≤ skin) (hbox : GoodBox bMin bMax (cutoff + skin) csf) (hcsf : 1 ≤ csf)
    (hsched : Distribution maxThreads (c08Bases (CellBlock.rebuild id bMin bMax (cutoff + skin) csf).dims
      (overlapOf (cutoff + skin) (CellBlock.rebuild id bMin bMax (cutoff + skin) csf).cellLength).toNat) sched)
    (hiter : ∀ m, (iter m).Perm m)
    (hf : FunctorFor .c08 pos₀ (cutoff + skin) f) (hh : ∀ p, f.isHalo p = decide (own₀ p = .halo))
    (hs : SortedIn (CellBlock.rebuild id bMin bMax (cutoff + skin) csf) pos₀ cells)
    (hk : ListsKept bMin bMax skin true pos₀ pos own₀ own cells.flatten)
    (hin : RemInput cells.flatten pb hb) (hhb : ∀ x ∈ hb.flatten, own x = .halo) (soa : Bool) :
    ∃ calls, vvlInteractions maxThreads sched iter pos₀ pos own (CellBlock.rebuild id bMin bMax (cutoff + skin) csf) cutoff skin f soa cells pb hb =
      some calls ∧ CompleteCalls pos own cutoff (cells.flatten ++ (pb.flatten ++ hb.flatten)) calls := by
  obtain ⟨lists, h⟩ := Option.isSome_iff_exists.1 (C60_build_in_range (f := f) (pos₀ := pos₀) (cells := cells) hbox hcsf hsched)
  unfold vvlInteractions
  rw [h, Option.map_some]
  exact ⟨_, rfl, (lc_c08_near_complete hcut hskin hbox hf hh hs hk (vvlCalls_perm hbox hsched hiter hf hs soa h)).with_remainder hcut hin hhb f.newton3⟩

/-- C60. Every owned particle receives the contribution of every other particle closer than the cutoff exactly once. -/
theorem C60_every_neighbour_once (hcut : 0 ≤ cutoff) (hskin : 0 ≤ skin) (hbox : GoodBox bMin bMax (cutoff + skin) csf) (hcsf : 1 ≤ csf)
    (hsched : Distribution maxThreads (c08Bases (CellBlock.rebuild id bMin bMax (cutoff + skin) csf).dims
      (overlapOf (cutoff + skin) (CellBlock.rebuild id bMin bMax (cutoff + skin) csf).cellLength).toNat) sched)
    (hiter : ∀ m, (iter m).Perm m)
    (hf : FunctorFor .c08 pos₀ (cutoff + skin) f) (hh : ∀ p, f.isHalo p = decide (own₀ p = .halo))
    (hs : SortedIn (CellBlock.rebuild id bMin bMax (cutoff + skin) csf) pos₀ cells)
    (hk : ListsKept bMin bMax skin true pos₀ pos own₀ own cells.flatten)
    (hin : RemInput cells.flatten pb hb) (hhb : ∀ x ∈ hb.flatten, own x = .halo) (soa : Bool) (a b : P)
    (ha : a ∈ cells.flatten ++ (pb.flatten ++ hb.flatten)) (hb' : b ∈ cells.flatten ++ (pb.flatten ++ hb.flatten)) (hab : a ≠ b)
    (hao : own a = .owned) (hbo : own b ≠ .dummy) (hd : distSq (pos a) (pos b) < cutoff * cutoff) :
    (vvlInteractions maxThreads sched iter pos₀ pos own (CellBlock.rebuild id bMin bMax (cutoff + skin) csf) cutoff skin f soa cells pb hb).map
      (fun calls => timesReceived calls a b) = some 1 := by
  obtain ⟨calls, h, hc⟩ := vvl_complete hcut hskin hbox hcsf hsched hiter hf hh hs hk hin hhb soa
  rw [h, Option.map_some]
  exact congrArg some (hc.once a ha b hb' hab hao hbo hd)

/-- No contribution is received twice, and only stored particles take part. -/
theorem C60_nothing_twice (hcut : 0 ≤ cutoff) (hskin : 0 ≤ skin) (hbox : GoodBox bMin bMax (cutoff + skin) csf) (hcsf : 1 ≤ csf)
    (hsched : Distribution maxThreads (c08Bases (CellBlock.rebuild id bMin bMax (cutoff + skin) csf).dims
      (overlapOf (cutoff + skin) (CellBlock.rebuild id bMin bMax (cutoff + skin) csf).cellLength).toNat) sched)
    (hiter : ∀ m, (iter m).Perm m)
    (hf : FunctorFor .c08 pos₀ (cutoff + skin) f) (hh : ∀ p, f.isHalo p = decide (own₀ p = .halo))
    (hs : SortedIn (CellBlock.rebuild id bMin bMax (cutoff + skin) csf) pos₀ cells)
    (hk : ListsKept bMin bMax skin true pos₀ pos own₀ own cells.flatten)
    (hin : RemInput cells.flatten pb hb) (hhb : ∀ x ∈ hb.flatten, own x = .halo) (soa : Bool) (calls : List (PairCall P))
    (hc : vvlInteractions maxThreads sched iter pos₀ pos own (CellBlock.rebuild id bMin bMax (cutoff + skin) csf) cutoff skin f soa
      cells pb hb = some calls) (a b : P) :
    timesReceived calls a b ≤ 1 ∧ (timesReceived calls a b ≠ 0 →
      a ∈ cells.flatten ++ (pb.flatten ++ hb.flatten) ∧ b ∈ cells.flatten ++ (pb.flatten ++ hb.flatten) ∧ a ≠ b) := by
  obtain ⟨calls', h, hc'⟩ := vvl_complete hcut hskin hbox hcsf hsched hiter hf hh hs hk hin hhb soa
  rw [hc] at h
  cases h
  exact ⟨hc'.most a b, hc'.mem a b⟩

/-- What the user sees: the sum over all other particles. -/
theorem C60_accumulates_sum {M : Type} [AddCommMonoid M] (hcut : 0 ≤ cutoff) (hskin : 0 ≤ skin)
    (hbox : GoodBox bMin bMax (cutoff + skin) csf) (hcsf : 1 ≤ csf)
    (hsched : Distribution maxThreads (c08Bases (CellBlock.rebuild id bMin bMax (cutoff + skin) csf).dims
      (overlapOf (cutoff + skin) (CellBlock.rebuild id bMin bMax (cutoff + skin) csf).cellLength).toNat) sched)
    (hiter : ∀ m, (iter m).Perm m)
    (hf : FunctorFor .c08 pos₀ (cutoff + skin) f) (hh : ∀ p, f.isHalo p = decide (own₀ p = .halo))
    (hs : SortedIn (CellBlock.rebuild id bMin bMax (cutoff + skin) csf) pos₀ cells)
    (hk : ListsKept bMin bMax skin true pos₀ pos own₀ own cells.flatten)
    (hin : RemInput cells.flatten pb hb) (hhb : ∀ x ∈ hb.flatten, own x = .halo) (soa : Bool) (F : P → P → M)
    (hz : ∀ a b, (own b = .dummy ∨ cutoff * cutoff ≤ distSq (pos a) (pos b)) → F a b = 0) (a : P)
    (ha : a ∈ cells.flatten ++ (pb.flatten ++ hb.flatten)) (hao : own a = .owned) :
    (vvlInteractions maxThreads sched iter pos₀ pos own (CellBlock.rebuild id bMin bMax (cutoff + skin) csf) cutoff skin f soa cells pb hb).map
      (fun calls => accumulated F calls a) = some (((cells.flatten ++ (pb.flatten ++ hb.flatten)).filter fun b => b ≠ a).map (F a)).sum := by
  obtain ⟨calls, h, hc⟩ := vvl_complete hcut hskin hbox hcsf hsched hiter hf hh hs hk hin hhb soa
  rw [h, Option.map_some]
  exact congrArg some (hc.accumulated hin.nodup F hz a ha hao)

/-- Lists of one colour, which different threads may process at the same time, update disjoint sets of particles. -/
theorem C60_race_free (hbox : GoodBox bMin bMax il csf)
    (hsched : Distribution maxThreads (c08Bases (CellBlock.rebuild id bMin bMax il csf).dims
      (overlapOf il (CellBlock.rebuild id bMin bMax il csf).cellLength).toNat) sched) (hiter : ∀ m, (iter m).Perm m)
    (hf : FunctorFor .c08 pos₀ il f) (hs : SortedIn (CellBlock.rebuild id bMin bMax il csf) pos₀ cells) (soa : Bool)
    (lists : List (List (VVLMap P))) (h : vvlBuild maxThreads pos₀ (CellBlock.rebuild id bMin bMax il csf) il f cells sched = some lists)
    (colour : List (List (PairCall P))) (hcolour : colour ∈ vvlCalls soa f.newton3 iter cells.flatten cells lists)
    (n m : Nat) (hn : n < colour.length) (hm : m < colour.length) (hnm : n ≠ m) (p : P) (hp : p ∈ writtenBy colour[n]) :
    p ∉ writtenBy colour[m] := by
  obtain ⟨⟨h8, ht⟩, rfl⟩ := vvlBuild_some h
  obtain ⟨hil, hx, hy, hz⟩ := (c18Dims_of hbox).pos
  have facts := c08_facts hbox
  have hops := c08_run_calls hbox hf hs
  set blk := CellBlock.rebuild id bMin bMax il csf with hblk
  have hbm := fun k t => hsched.base_mem k t
  unfold vvlCalls at hcolour
  rw [List.map_map] at hcolour
  obtain ⟨k, hk, rfl⟩ := List.mem_map.1 hcolour
  simp only [Function.comp, List.map_map, List.length_map, List.length_range] at hn hm
  simp only [Function.comp, List.map_map, List.getElem_map, List.getElem_range] at hp ⊢
  have key : ∀ t, p ∈ writtenBy (vlpList soa f.newton3 cells.flatten cells (iter (vvlThread pos₀ blk il f cells ((sched.getD k []).getD t [])))) →
      ∃ b ∈ (sched.getD k []).getD t [], ∃ op ∈ c08ProcessBaseCell blk.dims blk.cellLength il b,
        (threeToOneD (blk.indexOfPosition id (pos₀ p)) blk.dims : Int) ∈ touched op := by
    intro t hp
    rw [writtenBy_perm (vvlThread_calls (fun b hb' op hop => hops op (hbm k t b hb' op hop)) hiter soa)] at hp
    obtain ⟨c, hc, hpc⟩ := mem_writtenBy.1 hp
    obtain ⟨op, hop, hc⟩ := List.mem_flatMap.1 (List.mem_of_mem_filter hc)
    obtain ⟨b, hb, hop⟩ := List.mem_flatMap.1 hop
    refine ⟨b, hb, op, hop, ?_⟩
    have hv := validOp_of (facts.valid op (hbm k t b hb op hop))
    have hfirst : op.first ∈ touched op ∧ op.second ∈ touched op := by cases op <;> simp [touched, CellOp.first, CellOp.second]
    have : p = c.p ∨ p = c.q := by rcases hpc with h | ⟨-, h⟩ <;> simp [h]
    have e : ∀ i ∈ touched op, p ∈ (cellAt (lcCells blk cells) i).particles →
        (threeToOneD (blk.indexOfPosition id (pos₀ p)) blk.dims : Int) ∈ touched op := by
      intro i hi hp
      rw [cells_at_home hs (hv.1 i hi) hp]
      exact hi
    rcases op_two_cells hf.sorts hc with ⟨a1, a2⟩ | ⟨-, a1, a2⟩ <;> rcases this with rfl | rfl
    · exact e _ hfirst.1 a1
    · exact e _ hfirst.2 a2
    · exact e _ hfirst.2 a1
    · exact e _ hfirst.1 a2
  intro hp'
  obtain ⟨b₁, hb₁, op₁, h1, t1⟩ := key n hp
  obtain ⟨b₂, hb₂, op₂, h2, t2⟩ := key m hp'
  -- the colour
  have hkl : k < sched.length := by
    by_contra hx
    have e : sched.getD k [] = [] := by rw [List.getD_eq_getElem?_getD, List.getElem?_eq_none (by omega)]; rfl
    rw [e] at hb₁
    simp at hb₁
  have hget : sched.getD k [] = sched[k] := by rw [List.getD_eq_getElem?_getD, List.getElem?_eq_getElem hkl]; rfl
  rw [hget] at hb₁ hb₂
  have hf2 := List.forall₂_iff_get.1 hsched
  have hkc : k < (c08Bases blk.dims (overlapOf il blk.cellLength).toNat).length := by rw [hf2.1]; exact hkl
  have hperm := (hf2.2 k hkc hkl).2
  simp only [List.get_eq_getElem] at hperm
  have hnd : ((c08Bases blk.dims (overlapOf il blk.cellLength).toNat)[k]).Nodup :=
    (List.nodup_flatten.1 (nodup_colorTraversal _ _ _)).1 _ (List.getElem_mem hkc)
  have mem : ∀ {b t}, b ∈ (sched[k]).getD t [] → ∃ h : t < (sched[k]).length, b ∈ (sched[k])[t] := by
    intro b t hb
    rw [List.getD_eq_getElem?_getD] at hb
    by_cases hx : t < (sched[k]).length
    · rw [List.getElem?_eq_getElem hx] at hb; exact ⟨hx, hb⟩
    · rw [List.getElem?_eq_none (by omega)] at hb; simp at hb
  obtain ⟨l1, hb₁⟩ := mem hb₁
  obtain ⟨l2, hb₂⟩ := mem hb₂
  have hpw := (List.nodup_flatten.1 (hperm.nodup_iff.2 hnd)).2
  have hdisj : ∀ {b}, b ∈ (sched[k])[n] → b ∉ (sched[k])[m] := by
    intro b h1 h2
    rw [List.pairwise_iff_getElem] at hpw
    rcases lt_or_gt_of_ne hnm with hlt | hlt
    · exact hpw n m l1 l2 hlt h1 h2
    · exact hpw m n l2 l1 hlt h2 h1
  have m1 := hperm.mem_iff.1 (List.mem_flatten.2 ⟨_, List.getElem_mem l1, hb₁⟩)
  have m2 := hperm.mem_iff.1 (List.mem_flatten.2 ⟨_, List.getElem_mem l2, hb₂⟩)
  obtain ⟨i, hi, e1⟩ := List.getElem_of_mem m1
  obtain ⟨j, hj, e2⟩ := List.getElem_of_mem m2
  have hij : i ≠ j := by
    rintro rfl
    rw [e1] at e2
    subst e2
    exact hdisj hb₁ hb₂
  have hcol : ((c08Bases blk.dims (overlapOf il blk.cellLength).toNat)[k]).map (c08ProcessBaseCell blk.dims blk.cellLength il) ∈
      lcC08 blk.dims blk.cellLength il := List.mem_map.2 ⟨_, List.getElem_mem hkc, rfl⟩
  exact C08_lc_c08_race_free blk.dims blk.cellLength il hil hx hy hz _ hcol i j (by simpa using hi) (by simpa using hj) hij op₁ op₂
    (by rw [List.getElem_map, e1]; exact h1) (by rw [List.getElem_map, e2]; exact h2) _ t1 t2

end

/-! Non-vacuity: the situation of the example of C53; the base cells of a colour are dealt out to two threads. -/

private def exF60 (newton3 : Bool) : CellFunctorCfg Particle :=
  ⟨fun p => p.own = .halo, true, newton3, true, 0, 3/4 + 1/4, ⟨1, 1, 1⟩, sortByProjection Particle.pos⟩

private theorem exF60_for (newton3 : Bool) : FunctorFor .c08 Particle.pos (3/4 + 1/4) (exF60 newton3) :=
  ⟨rfl, rfl, (fun h => by cases h), sortByProjection_sorted _⟩

private theorem exBox60 : GoodBox ⟨0, 0, 0⟩ ⟨1, 1, 1⟩ (3/4 + 1/4) 1 := by
  have e : (3/4 + 1/4 : Rat) = 1 := by norm_num
  rw [e]; exact exGood

private theorem exRem60 : RemInput exCells.flatten exVecs [[]] := ⟨by decide +kernel, rfl⟩

private def exPos60 (p : Particle) : V3 Rat := ⟨p.pos.x + 1/20, p.pos.y, p.pos.z⟩

private def exOwn60 (p : Particle) : Ownership := if p = exOwned2 then .dummy else p.own

private theorem exKept60 (soaBuild : Bool) : ListsKept ⟨0, 0, 0⟩ ⟨1, 1, 1⟩ (1/4) soaBuild Particle.pos exPos60 Particle.own exOwn60 exCells.flatten := by
  refine ⟨?_, by decide +kernel, fun _ => by decide +kernel⟩
  intro p _
  unfold distSq exPos60
  simp only [add_sub_cancel_left, sub_self]
  norm_num

private def exSched (colours : List (List (V3 Nat))) : List (List (List (V3 Nat))) := colours.map fun c => [c.drop 1, c.take 1]

private theorem exSched_dist (colours : List (List (V3 Nat))) : Distribution 3 colours (exSched colours) := by
  unfold Distribution exSched
  rw [List.forall₂_map_right_iff, List.forall₂_same]
  intro c _
  refine ⟨by simp, ?_⟩
  simp only [List.flatten_cons, List.flatten_nil, List.append_nil]
  exact List.perm_append_comm.trans (List.Perm.of_eq (List.take_append_drop 1 c))

example (soa newton3 : Bool) : (vvlInteractions 3 (exSched (c08Bases (CellBlock.rebuild id ⟨0, 0, 0⟩ ⟨1, 1, 1⟩ (3/4 + 1/4) 1).dims
      (overlapOf (3/4 + 1/4) (CellBlock.rebuild id ⟨0, 0, 0⟩ ⟨1, 1, 1⟩ (3/4 + 1/4) 1).cellLength).toNat)) List.reverse Particle.pos exPos60 exOwn60
      (CellBlock.rebuild id ⟨0, 0, 0⟩ ⟨1, 1, 1⟩ (3/4 + 1/4) 1) (3/4) (1/4) (exF60 newton3) soa exCells exVecs [[]]).map
      (fun calls => timesReceived calls exOwned ⟨5, ⟨1/8, 1/8, 1/8⟩, .owned⟩) = some 1 := by
  have h1 : exOwned ∈ exCells.flatten ++ (exVecs.flatten ++ [[]].flatten) := by decide +kernel
  have h2 : (⟨5, ⟨1/8, 1/8, 1/8⟩, .owned⟩ : Particle) ∈ exCells.flatten ++ (exVecs.flatten ++ [[]].flatten) := by decide +kernel
  have h3 : exOwned ≠ (⟨5, ⟨1/8, 1/8, 1/8⟩, .owned⟩ : Particle) := by decide +kernel
  have h4 : exOwn60 exOwned = .owned ∧ exOwn60 ⟨5, ⟨1/8, 1/8, 1/8⟩, .owned⟩ ≠ .dummy := by decide +kernel
  have h5 : distSq (exPos60 exOwned) (exPos60 ⟨5, ⟨1/8, 1/8, 1/8⟩, .owned⟩) < 3/4 * (3/4) := by decide +kernel
  exact C60_every_neighbour_once (by norm_num) (by norm_num) exBox60 (by norm_num) (exSched_dist _) (fun _ => List.reverse_perm _)
    (exF60_for newton3) (fun _ => rfl) exSortedIn (exKept60 _) exRem60 (by simp) soa _ _ h1 h2 h3 h4.1 h4.2 h5

end Verif
