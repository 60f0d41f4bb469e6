import Verif.Lemmas.VerletListsPairwise
import Verif.Props.C08
/-!
# C59 — the pairwise Verlet lists

The container PairwiseVerletLists keeps one list per particle and neighbouring cell. The number of lists is fixed before they are filled: no
access is out of range. With the traversals `vlp_c01`, `vlp_c18`, `vlp_sliced`, `vlp_sliced_balanced`, `vlp_sliced_c02` and `vlp_c08` every neighbour is
used exactly once while the lists are kept, and no two threads update the same particle. The cell size factor is at least one, as in all Verlet
list containers (/repo/src/autopas/tuning/selectors/ContainerSelector.h: `std::max(1.0, cellSizeFactor)`).
-/
namespace Verif
open Spec

/-- The traversals of the container. -/
inductive VLPTraversal
  | perCell (t : VLCTraversal)
  | c08

section
variable {P : Type} [DecidableEq P] {bMin bMax : V3 Rat} {cutoff skin csf il : Rat} {pos₀ pos : P → V3 Rat} {own₀ own : P → Ownership}
  {f : CellFunctorCfg P} {cells : List (List P)}

/-- C59. Building the lists never accesses anything out of range. -/
theorem C59_build_in_range (hbox : GoodBox bMin bMax il csf) (hcsf : 1 ≤ csf) (hf : FunctorFor .c18 pos₀ il f)
    (hs : SortedIn (CellBlock.rebuild id bMin bMax il csf) pos₀ cells) :
    (vlpBuild pos₀ own₀ (CellBlock.rebuild id bMin bMax il csf) il f cells).isSome = true := by
  obtain ⟨s, h, -⟩ := vlpBuild_spec (own₀ := own₀) hbox hcsf hf hs
  rw [h]; rfl

theorem c18_calls (hbox : GoodBox bMin bMax il csf) (hf : FunctorFor .c18 pos₀ il f)
    (hs : SortedIn (CellBlock.rebuild id bMin bMax il csf) pos₀ cells) : ∀ c ∈ f.run (lcCells (CellBlock.rebuild id bMin bMax il csf) cells)
      (LCTraversal.c18.ops (CellBlock.rebuild id bMin bMax il csf).dims (CellBlock.rebuild id bMin bMax il csf).cellLength il),
    c.p ∈ cells.flatten ∧ c.q ∈ cells.flatten ∧ c.p ≠ c.q ∧ c.newton3 = f.newton3 := by
  have h0 : il + 0 = il := add_zero il
  have hcalls := fun c => C51_linked_cells_calls bMin bMax il 0 csf (by rw [h0]; exact hbox) .c18 pos₀ pos₀ f cells c
  simp only [h0] at hcalls
  exact fun c => hcalls c trivial hf hs

/-- Going through all lists of a cell gives the calls that the lists of VerletListsCells give. -/
theorem vlpPackage_perm (hbox : GoodBox bMin bMax il csf) (hcsf : 1 ≤ csf) (hf : FunctorFor .c18 pos₀ il f)
    (hs : SortedIn (CellBlock.rebuild id bMin bMax il csf) pos₀ cells) (soa : Bool) {s : VLPLists P}
    (h : vlpBuild pos₀ own₀ (CellBlock.rebuild id bMin bMax il csf) il f cells = some s) {bases : List (V3 Nat)}
    (hb : ∀ b ∈ bases, InGrid b (CellBlock.rebuild id bMin bMax il csf).dims) :
    (vlpPackage soa f.newton3 (CellBlock.rebuild id bMin bMax il csf).dims cells.flatten cells s bases).Perm
      (vlcPackage soa f.newton3 (CellBlock.rebuild id bMin bMax il csf).dims cells.flatten cells
        (vlcBuild pos₀ own₀ (CellBlock.rebuild id bMin bMax il csf) il f cells) bases) := by
  obtain ⟨s', h', inv⟩ := vlpBuild_spec (own₀ := own₀) hbox hcsf hf hs
  rw [h] at h'
  cases h'
  have hcalls := c18_calls hbox hf hs
  obtain ⟨-, hE⟩ := vlcFold_spec (pos := pos₀) (own := own₀) (il := il) (soa := f.soa) _ (fun c h => (hcalls c h).1) _ (vlcHeads_empty cells)
  have hlen : ∀ b ∈ bases, threeToOneD b (CellBlock.rebuild id bMin bMax il csf).dims < cells.length := by
    intro b hb'
    rw [hs.length]
    exact flat_lt (hb b hb')
  unfold vlcBuild
  set blk := CellBlock.rebuild id bMin bMax il csf with hblk
  generalize f.run (lcCells blk cells) (LCTraversal.c18.ops blk.dims blk.cellLength il) = calls at *
  unfold vlpPackage vlcPackage
  apply List.Perm.flatMap_left
  intro b hb'
  have hall := vlpAll_entries inv (hlen b hb') (by unfold vlpNb; simp)
  have hvlc := hE (threeToOneD b blk.dims)
  rw [vlcEntries_empty, List.nil_append] at hvlc
  have hperm : ((s.slots.getD (threeToOneD b blk.dims) []).flatMap vlcEntries).Perm (vlcEntries ((calls.foldl (vlcGenerate pos₀ own₀ il f.soa cells)
      (vlcEmpty cells)).getD (threeToOneD b blk.dims) [])) := by
    refine hall.trans (List.Perm.trans (List.Perm.of_eq ?_) hvlc.symm)
    rw [List.filter_map, List.filter_filter]
    congr 1
    apply List.filter_congr
    intro c _
    simp [Function.comp, Bool.and_comm]
  have hmem : ∀ e ∈ vlcEntries ((calls.foldl (vlcGenerate pos₀ own₀ il f.soa cells) (vlcEmpty cells)).getD (threeToOneD b blk.dims) []),
      e.1 ∈ cells.flatten ∧ e.2 ∈ cells.flatten := by
    intro e he
    have := hvlc.mem_iff.1 he
    obtain ⟨c, hc, rfl⟩ := List.mem_map.1 this
    have := hcalls c (List.mem_of_mem_filter hc)
    exact ⟨this.1, this.2.1⟩
  have e1 : (if soa = true then vlcProcessSoA f.newton3 (soaLoad cells) (vlcSoALists cells.flatten (calls.foldl (vlcGenerate pos₀ own₀ il f.soa cells)
      (vlcEmpty cells))) (threeToOneD b blk.dims) else vlcProcessAoS f.newton3 (calls.foldl (vlcGenerate pos₀ own₀ il f.soa cells)
      (vlcEmpty cells)) (threeToOneD b blk.dims)) = (vlcEntries ((calls.foldl (vlcGenerate pos₀ own₀ il f.soa cells)
      (vlcEmpty cells)).getD (threeToOneD b blk.dims) [])).map fun e => ⟨e.1, e.2, f.newton3⟩ := by
    rw [← vlcProcessAoS_eq]
    split
    · exact vlcProcessSoA_eq _ hmem
    · rfl
  rw [e1]
  refine List.Perm.trans (List.Perm.of_eq ?_) (hperm.map _)
  rw [List.map_flatMap]
  apply List.flatMap_congr
  intro l hl
  exact vlpList_eq soa f.newton3 fun e he => hmem e (hperm.mem_iff.1 (List.mem_flatMap.2 ⟨l, hl, he⟩))

omit [DecidableEq P] in
theorem cells_at_home {blk : CellBlock} (hs : SortedIn blk pos₀ cells) {i : Int} {p : P} (hi : 0 ≤ i)
    (hp : p ∈ (cellAt (lcCells blk cells) i).particles) : (threeToOneD (blk.indexOfPosition id (pos₀ p)) blk.dims : Int) = i := by
  rw [(cellAt_lcCells i).1] at hp
  have := hs.home _ p hp
  omega

/-- With Newton 3 the lists are those of the cell with the smaller number. -/
theorem c18_calls_ordered (hbox : GoodBox bMin bMax il csf) (hcsf : 1 ≤ csf) (hf : FunctorFor .c18 pos₀ il f) (hn : f.newton3 = true)
    (hs : SortedIn (CellBlock.rebuild id bMin bMax il csf) pos₀ cells) : ∀ c ∈ f.run (lcCells (CellBlock.rebuild id bMin bMax il csf) cells)
      (LCTraversal.c18.ops (CellBlock.rebuild id bMin bMax il csf).dims (CellBlock.rebuild id bMin bMax il csf).cellLength il),
    (particleToCell cells c.p).1 ≤ (particleToCell cells c.q).1 := by
  intro c hc
  have hmem := c18_calls hbox hf hs c hc
  rw [particleToCell_home hs hmem.1, particleToCell_home hs hmem.2.1]
  obtain ⟨op, hop, hc⟩ := List.mem_flatMap.1 hc
  obtain ⟨h1, h2, -⟩ := vlp_nb hbox hcsf hop f.newton3
  obtain ⟨a, b⟩ := op_cells hf.sorts hn hc
  have e1 := cells_at_home hs h1 a
  have e2 := cells_at_home hs (by omega) b
  omega

/-- What `vlp_c08` does for one pair of cells. -/
def vlpOp (soa newton3 : Bool) (order : List P) (cells : List (List P)) (s : VLPLists P) : CellOp → List (PairCall P)
  | .self i => vlpCellPair soa newton3 order cells s i i
  | .pair i j _ => vlpCellPair soa newton3 order cells s i j

theorem vlpC08Base_eq (soa newton3 : Bool) (blk : CellBlock) (order : List P) (s : VLPLists P) (base : V3 Nat) :
    vlpC08Base soa newton3 blk il order cells s base =
      (c08ProcessBaseCell blk.dims blk.cellLength il base).flatMap (vlpOp soa newton3 order cells s) := by
  unfold vlpC08Base c08ProcessBaseCell
  rw [List.flatMap_map]
  apply List.flatMap_congr
  intro o _
  unfold cellOpOf
  simp only
  split
  · rename_i h
    simp only [vlpOp]
    rw [← h]
  · rfl

theorem filter_or_perm {X : Type} (l : List X) (A B : X → Bool) (h : ∀ x ∈ l, A x = true → B x = false) :
    (l.filter A ++ l.filter B).Perm (l.filter fun x => A x || B x) := by
  have := List.filter_append_perm A (l.filter fun x => A x || B x)
  refine List.Perm.trans (List.Perm.of_eq ?_) this
  rw [List.filter_filter, List.filter_filter]
  congr 1
  · apply List.filter_congr
    intro x _
    cases A x <;> simp
  · apply List.filter_congr
    intro x hx
    have := h x hx
    cases hA : A x <;> simp_all

theorem vlpOp_perm (hbox : GoodBox bMin bMax il csf) (hcsf : 1 ≤ csf) (hf : FunctorFor .c18 pos₀ il f)
    (hs : SortedIn (CellBlock.rebuild id bMin bMax il csf) pos₀ cells) (soa : Bool) {s : VLPLists P}
    (h : vlpBuild pos₀ own₀ (CellBlock.rebuild id bMin bMax il csf) il f cells = some s) {op : CellOp} (hop : ValidOp op) :
    (vlpOp soa f.newton3 cells.flatten cells s op).Perm
      (((f.run (lcCells (CellBlock.rebuild id bMin bMax il csf) cells)
      (LCTraversal.c18.ops (CellBlock.rebuild id bMin bMax il csf).dims (CellBlock.rebuild id bMin bMax il csf).cellLength il)).filter
        fun c => vlcIsNeighbour pos₀ own₀ il f.soa c.p c.q).filter fun c => hits true (particleToCell cells c.p).1 (particleToCell cells c.q).1 op) := by
  obtain ⟨s', h', inv⟩ := vlpBuild_spec (own₀ := own₀) hbox hcsf hf hs
  rw [h] at h'
  cases h'
  have hcalls := c18_calls hbox hf hs
  have hord := fun hn => c18_calls_ordered hbox hcsf hf hn hs
  generalize f.run _ _ = calls at *
  generalize vlpNb _ _ = nb at *
  have hfind : ∀ k c, (vlpList soa f.newton3 cells.flatten cells (s.find k c)).Perm ((calls.filter
      fun c => vlcIsNeighbour pos₀ own₀ il f.soa c.p c.q).filter
      fun e => (particleToCell cells e.p).1 = k ∧ (particleToCell cells e.q).1 = c) := by
    intro k c
    have := vlpFind_entries inv k c
    rw [vlpList_eq]
    · refine (this.map _).trans (List.Perm.of_eq ?_)
      rw [List.filter_map, List.map_map]
      conv_rhs => rw [← List.map_id ((calls.filter _).filter _)]
      apply List.map_congr_left
      intro e he
      have := hcalls e (List.mem_of_mem_filter (List.mem_of_mem_filter he))
      rcases e with ⟨p, q, n3⟩
      simp only [Function.comp, id] at this ⊢
      rw [← this.2.2.2]
    · intro e he
      obtain ⟨e', he', rfl⟩ := List.mem_map.1 (List.mem_of_mem_filter (this.mem_iff.1 he))
      have := hcalls e' (List.mem_of_mem_filter he')
      exact ⟨this.1, this.2.1⟩
  have hL : ∀ c ∈ calls.filter fun c => vlcIsNeighbour pos₀ own₀ il f.soa c.p c.q,
      f.newton3 = true → (particleToCell cells c.p).1 ≤ (particleToCell cells c.q).1 :=
    fun c hc hn => hord hn c (List.mem_of_mem_filter hc)
  generalize (calls.filter fun c => vlcIsNeighbour pos₀ own₀ il f.soa c.p c.q) = L at *
  cases op with
  | self i =>
    have hi : 0 ≤ i := hop.1 i (by simp [touched])
    simp only [vlpOp, vlpCellPair, min_self, max_self, ne_eq, not_true_eq_false, and_false, if_false, List.append_nil]
    refine (hfind _ _).trans (List.Perm.of_eq ?_)
    apply List.filter_congr
    intro c _
    simp only [hits, true_and]
    rw [decide_eq_decide]
    omega
  | pair i j dir =>
    have hi : 0 ≤ i := hop.1 i (by simp [touched])
    have hj : 0 ≤ j := hop.1 j (by simp [touched])
    have hij : i ≠ j := by
      have := hop.2
      simp [touched] at this
      exact this
    have hne : (min i j).toNat ≠ (max i j).toNat := by omega
    have hmm : (min i j = i ∧ max i j = j ∧ i ≤ j) ∨ (min i j = j ∧ max i j = i ∧ j ≤ i) := by omega
    simp only [vlpOp, vlpCellPair]
    generalize min i j = lo at *
    generalize max i j = hi' at *
    by_cases hn : f.newton3 = true
    · rw [if_neg (by simp [hn]), List.append_nil]
      refine (hfind _ _).trans (List.Perm.of_eq ?_)
      apply List.filter_congr
      intro c hc
      have := hL c hc hn
      simp only [hits, true_and]
      rw [decide_eq_decide]
      omega
    · rw [if_pos ⟨by simpa using hn, hne⟩]
      refine ((hfind _ _).append (hfind _ _)).trans ((filter_or_perm _ _ _ ?_).trans (List.Perm.of_eq ?_))
      · intro c _ h1
        simp only [decide_eq_true_eq, decide_eq_false_iff_not] at h1 ⊢
        omega
      · apply List.filter_congr
        intro c _
        simp only [hits, true_and]
        rw [← Bool.decide_or, decide_eq_decide]
        omega

theorem vlc_c18_received (hbox : GoodBox bMin bMax il csf) (hf : FunctorFor .c18 pos₀ il f)
    (hs : SortedIn (CellBlock.rebuild id bMin bMax il csf) pos₀ cells) (soa : Bool) (a b : P) :
    timesReceived (vlcCalls soa f.newton3 (CellBlock.rebuild id bMin bMax il csf).dims cells.flatten cells
      (vlcBuild pos₀ own₀ (CellBlock.rebuild id bMin bMax il csf) il f cells)
      (VLCTraversal.c18.bases (CellBlock.rebuild id bMin bMax il csf).dims (CellBlock.rebuild id bMin bMax il csf).cellLength il)) a b =
    timesReceived ((f.run (lcCells (CellBlock.rebuild id bMin bMax il csf) cells)
      (LCTraversal.c18.ops (CellBlock.rebuild id bMin bMax il csf).dims (CellBlock.rebuild id bMin bMax il csf).cellLength il)).filter
        fun c => vlcIsNeighbour pos₀ own₀ il f.soa c.p c.q) a b := by
  have hperm := vlcCalls_perm hbox .c18 (f := f) trivial hs (own := own₀) soa (c18_calls hbox hf hs)
  unfold vlcBuild
  rw [show timesReceived _ a b = _ from (contributions_perm hperm).count_eq (a, b)]
  unfold timesReceived
  congr 2
  apply List.filter_congr
  intro c _
  have : VLCTraversal.c18.Visits (CellBlock.rebuild id bMin bMax il csf).dims (CellBlock.rebuild id bMin bMax il csf).cellLength il
      ((CellBlock.rebuild id bMin bMax il csf).indexOfPosition id (pos₀ c.p)) := ⟨hbox.inGrid _, by simp⟩
  simp [this]

/-- `vlp_c08` lets `a` receive from `b` what the lists of VerletListsCells would, once for every visit of the pair of their cells. -/
theorem vlpC08_received (hbox : GoodBox bMin bMax il csf) (hcsf : 1 ≤ csf) (hf : FunctorFor .c18 pos₀ il f)
    (hs : SortedIn (CellBlock.rebuild id bMin bMax il csf) pos₀ cells) (soa : Bool) {s : VLPLists P}
    (h : vlpBuild pos₀ own₀ (CellBlock.rebuild id bMin bMax il csf) il f cells = some s) (a b : P) :
    (timesReceived ((f.run (lcCells (CellBlock.rebuild id bMin bMax il csf) cells)
      (LCTraversal.c18.ops (CellBlock.rebuild id bMin bMax il csf).dims (CellBlock.rebuild id bMin bMax il csf).cellLength il)).filter
        fun c => vlcIsNeighbour pos₀ own₀ il f.soa c.p c.q) a b = 0 →
      timesReceived (vlpC08Calls soa f.newton3 (CellBlock.rebuild id bMin bMax il csf) il cells.flatten cells s).flatten.flatten a b = 0) ∧
    (timesReceived ((f.run (lcCells (CellBlock.rebuild id bMin bMax il csf) cells)
      (LCTraversal.c18.ops (CellBlock.rebuild id bMin bMax il csf).dims (CellBlock.rebuild id bMin bMax il csf).cellLength il)).filter
        fun c => vlcIsNeighbour pos₀ own₀ il f.soa c.p c.q) a b = 1 →
      timesReceived (vlpC08Calls soa f.newton3 (CellBlock.rebuild id bMin bMax il csf) il cells.flatten cells s).flatten.flatten a b =
        (lcC08 (CellBlock.rebuild id bMin bMax il csf).dims (CellBlock.rebuild id bMin bMax il csf).cellLength il).flatten.flatten.countP
          (hits true (particleToCell cells a).1 (particleToCell cells b).1)) := by
  have facts := c08_facts hbox
  have hop := fun op (hop : ValidOp op) => vlpOp_perm (own₀ := own₀) hbox hcsf hf hs soa h hop
  set blk := CellBlock.rebuild id bMin bMax il csf with hblk
  have e1 : (vlpC08Calls soa f.newton3 blk il cells.flatten cells s).flatten.flatten =
      (lcC08 blk.dims blk.cellLength il).flatten.flatten.flatMap (vlpOp soa f.newton3 cells.flatten cells s) := by
    unfold vlpC08Calls lcC08
    have key : ∀ L : List (List (V3 Nat)), (L.map fun colour => colour.map (vlpC08Base soa f.newton3 blk il cells.flatten cells s)).flatten.flatten =
        (L.map fun colour => colour.map (c08ProcessBaseCell blk.dims blk.cellLength il)).flatten.flatten.flatMap
          (vlpOp soa f.newton3 cells.flatten cells s) := by
      intro L
      rw [← List.map_flatten, ← List.map_flatten, ← List.flatMap_def, ← List.flatMap_def, List.flatMap_assoc]
      apply List.flatMap_congr
      intro b _
      exact vlpC08Base_eq soa f.newton3 blk cells.flatten s b
    exact key _
  rw [e1]
  generalize f.run (lcCells blk cells) (LCTraversal.c18.ops blk.dims blk.cellLength il) = calls at *
  generalize (calls.filter fun c => vlcIsNeighbour pos₀ own₀ il f.soa c.p c.q) = L at *
  have hrec : ∀ op ∈ (lcC08 blk.dims blk.cellLength il).flatten.flatten, timesReceived (vlpOp soa f.newton3 cells.flatten cells s op) a b =
      if hits true (particleToCell cells a).1 (particleToCell cells b).1 op then timesReceived L a b else 0 := by
    intro op ho
    rw [show timesReceived _ a b = _ from (contributions_perm (hop op (validOp_of (facts.valid op ho)))).count_eq (a, b)]
    refine timesReceived_filter L (fun p q => hits true (particleToCell cells p).1 (particleToCell cells q).1 op) a b (.inr ?_)
    cases op <;> simp only [hits, true_and] <;> rw [decide_eq_decide] <;> omega
  constructor
  · intro h0
    have := timesReceived_flatMap_le (l := (lcC08 blk.dims blk.cellLength il).flatten.flatten) (g := vlpOp soa f.newton3 cells.flatten cells s)
      (a := a) (b := b) (q := fun _ => false) (by
        intro op ho
        rw [hrec op ho, h0]
        simp)
    rw [List.countP_false] at this
    exact Nat.le_zero.1 this
  · intro h1
    refine timesReceived_flatMap_indicator fun op ho => ?_
    rw [hrec op ho, h1]

omit [DecidableEq P] in
/-- Neighbours now were neighbours within the interaction length when the lists were built. -/
theorem ListsKept.near {soa : Bool} (hcut : 0 ≤ cutoff) (hskin : 0 ≤ skin) {all : List P} (hk : ListsKept bMin bMax skin soa pos₀ pos own₀ own all)
    {a b : P} (ha : a ∈ all) (hb : b ∈ all) (hd : distSq (pos a) (pos b) < cutoff * cutoff) :
    distSq (pos₀ a) (pos₀ b) < (cutoff + skin) * (cutoff + skin) := by
  have m1 := hk.moved a ha
  have m2 := hk.moved b hb
  have e1 : distSq (pos a) (pos₀ a) ≤ (skin / 2) * (skin / 2) := by linarith
  have e2 : distSq (pos b) (pos₀ b) ≤ (skin / 2) * (skin / 2) := by linarith
  have k2 := distSq_triangle_lt (by linarith) (by linarith) hd e2
  rw [distSq_symm] at k2
  have k3 := distSq_triangle_lt (by linarith) (by linarith) k2 e1
  rw [distSq_symm]
  calc _ < _ := k3
    _ = _ := by ring

/-- `computeInteractions` of the container. -/
def VLPTraversal.calls (t : VLPTraversal) (soa newton3 : Bool) (blk : CellBlock) (il : Rat) (cells : List (List P)) (s : VLPLists P) :
    List (PairCall P) :=
  match t with
  | .perCell t => vlpCalls soa newton3 blk.dims cells.flatten cells s (t.bases blk.dims blk.cellLength il)
  | .c08 => (vlpC08Calls soa newton3 blk il cells.flatten cells s).flatten.flatten

/-- When the traversals can be used (VLCCellPairC08Traversal.h:47-49: always). -/
def VLPTraversal.Applicable (t : VLPTraversal) (newton3 : Bool) (blk : CellBlock) (il : Rat) : Prop :=
  match t with
  | .perCell t => t.Applicable newton3 blk.dims blk.cellLength il
  | .c08 => True

theorem vlp_complete (hcut : 0 ≤ cutoff) (hskin : 0 ≤ skin) (hbox : GoodBox bMin bMax (cutoff + skin) csf) (hcsf : 1 ≤ csf) (t : VLPTraversal)
    (ht : t.Applicable f.newton3 (CellBlock.rebuild id bMin bMax (cutoff + skin) csf) (cutoff + skin))
    (hf : FunctorFor .c18 pos₀ (cutoff + skin) f) (hh : ∀ p, f.isHalo p = decide (own₀ p = .halo))
    (hs : SortedIn (CellBlock.rebuild id bMin bMax (cutoff + skin) csf) pos₀ cells)
    (hk : ListsKept bMin bMax skin f.soa pos₀ pos own₀ own cells.flatten) (soa : Bool) {s : VLPLists P}
    (h : vlpBuild pos₀ own₀ (CellBlock.rebuild id bMin bMax (cutoff + skin) csf) (cutoff + skin) f cells = some s) :
    CompleteCalls pos own cutoff cells.flatten
      (t.calls soa f.newton3 (CellBlock.rebuild id bMin bMax (cutoff + skin) csf) (cutoff + skin) cells s) := by
  cases t with
  | perCell t =>
    have hc := vlc_complete (own := own) hcut hskin hbox t ht hf hh hs hk soa
    have hB := (vlcBases_facts hbox t f.newton3 ht).2
    have hp : ((VLPTraversal.perCell t).calls soa f.newton3 (CellBlock.rebuild id bMin bMax (cutoff + skin) csf) (cutoff + skin) cells s).Perm
        (vlcCalls soa f.newton3 (CellBlock.rebuild id bMin bMax (cutoff + skin) csf).dims cells.flatten cells
        (vlcBuild pos₀ own₀ (CellBlock.rebuild id bMin bMax (cutoff + skin) csf) (cutoff + skin) f cells)
        (t.bases (CellBlock.rebuild id bMin bMax (cutoff + skin) csf).dims
          (CellBlock.rebuild id bMin bMax (cutoff + skin) csf).cellLength (cutoff + skin))) := by
      unfold VLPTraversal.calls vlpCalls vlcCalls
      apply List.Perm.flatMap_left
      intro bases hb
      refine vlpPackage_perm hbox hcsf hf hs soa h fun b hb' => ?_
      exact ((hB b).1 (List.mem_flatten.2 ⟨_, hb, hb'⟩)).1
    have e : ∀ a b, timesReceived ((VLPTraversal.perCell t).calls soa f.newton3 (CellBlock.rebuild id bMin bMax (cutoff + skin) csf)
        (cutoff + skin) cells s) a b = _ := fun a b => (contributions_perm hp).count_eq (a, b)
    exact ⟨fun a ha b hb h1 h2 h3 h4 => (e a b).trans (hc.once a ha b hb h1 h2 h3 h4), fun a b => by rw [e]; exact hc.most a b,
      fun a b hx => hc.mem a b (by rw [e] at hx; exact hx)⟩
  | c08 =>
    have hc := vlc_complete (own := own) hcut hskin hbox .c18 trivial hf hh hs hk soa
    have e := fun a b => vlc_c18_received (own₀ := own₀) hbox hf hs soa a b
    have hr := fun a b => vlpC08_received (own₀ := own₀) hbox hcsf hf hs soa h a b
    have facts := c08_facts hbox
    have hall : ∀ a b, timesReceived ((VLPTraversal.c08).calls soa f.newton3 (CellBlock.rebuild id bMin bMax (cutoff + skin) csf)
        (cutoff + skin) cells s) a b ≠ 0 → a ∈ cells.flatten ∧ b ∈ cells.flatten ∧ a ≠ b := by
      intro a b hx
      refine hc.mem a b fun h0 => hx ?_
      rw [e] at h0
      exact (hr a b).1 h0
    refine ⟨?_, ?_, hall⟩
    · intro a ha b hb hab hao hbo hd
      have h1 := hc.once a ha b hb hab hao hbo hd
      rw [e] at h1
      refine ((hr a b).2 h1).trans ?_
      rw [particleToCell_home hs ha, particleToCell_home hs hb]
      exact facts.once _ _ (le_of_lt (hk.near hcut hskin ha hb hd)) (hk.owned a ha hao).2
    · intro a b
      by_contra hx
      obtain ⟨ha, hb, -⟩ := hall a b (by omega)
      have hm := hc.most a b
      rw [e] at hm
      by_cases h0 : timesReceived ((f.run (lcCells (CellBlock.rebuild id bMin bMax (cutoff + skin) csf) cells)
        (LCTraversal.c18.ops (CellBlock.rebuild id bMin bMax (cutoff + skin) csf).dims
        (CellBlock.rebuild id bMin bMax (cutoff + skin) csf).cellLength (cutoff + skin))).filter
        fun c => vlcIsNeighbour pos₀ own₀ (cutoff + skin) f.soa c.p c.q) a b = 0
      · exact hx (le_trans (le_of_eq ((hr a b).1 h0)) (by omega))
      · have h1 := (hr a b).2 (by omega)
        rw [particleToCell_home hs ha, particleToCell_home hs hb] at h1
        exact hx (le_trans (le_of_eq h1) (facts.most _ _ (hbox.inGrid _) (hbox.inGrid _)))

/-- `computeInteractions` with pairwise Verlet lists: building, using the lists, and the remainder traversal. `none`: something was accessed out
of range. -/
def vlpInteractions (pos₀ pos : P → V3 Rat) (own₀ own : P → Ownership) (blk : CellBlock) (cutoff skin : Rat)
    (f : CellFunctorCfg P) (t : VLPTraversal) (soa : Bool) (cells pb hb : List (List P)) : Option (List (PairCall P)) :=
  (vlpBuild pos₀ own₀ blk (cutoff + skin) f cells).map fun s =>
    t.calls soa f.newton3 blk (cutoff + skin) cells s ++ remainder2B pos own f.newton3 cutoff cells.flatten pb hb

variable {pb hb : List (List P)}

/-- C59. Every owned particle receives the contribution of every other particle closer than the cutoff exactly once. -/
theorem C59_every_neighbour_once (hcut : 0 ≤ cutoff) (hskin : 0 ≤ skin) (hbox : GoodBox bMin bMax (cutoff + skin) csf) (hcsf : 1 ≤ csf)
    (t : VLPTraversal) (ht : t.Applicable f.newton3 (CellBlock.rebuild id bMin bMax (cutoff + skin) csf) (cutoff + skin))
    (hf : FunctorFor .c18 pos₀ (cutoff + skin) f) (hh : ∀ p, f.isHalo p = decide (own₀ p = .halo))
    (hs : SortedIn (CellBlock.rebuild id bMin bMax (cutoff + skin) csf) pos₀ cells)
    (hk : ListsKept bMin bMax skin f.soa pos₀ pos own₀ own cells.flatten)
    (hin : RemInput cells.flatten pb hb) (hhb : ∀ x ∈ hb.flatten, own x = .halo) (soa : Bool) (a b : P)
    (ha : a ∈ cells.flatten ++ (pb.flatten ++ hb.flatten)) (hb' : b ∈ cells.flatten ++ (pb.flatten ++ hb.flatten)) (hab : a ≠ b)
    (hao : own a = .owned) (hbo : own b ≠ .dummy) (hd : distSq (pos a) (pos b) < cutoff * cutoff) :
    (vlpInteractions pos₀ pos own₀ own (CellBlock.rebuild id bMin bMax (cutoff + skin) csf) cutoff skin f t soa cells pb hb).map
      (fun calls => timesReceived calls a b) = some 1 := by
  obtain ⟨s, h, -⟩ := vlpBuild_spec (own₀ := own₀) hbox hcsf hf hs
  unfold vlpInteractions
  rw [h, Option.map_some, Option.map_some]
  exact congrArg some (((vlp_complete hcut hskin hbox hcsf t ht hf hh hs hk soa h).with_remainder hcut hin hhb f.newton3).once
    a ha b hb' hab hao hbo hd)

/-- No contribution is received twice, and only stored particles take part. -/
theorem C59_nothing_twice (hcut : 0 ≤ cutoff) (hskin : 0 ≤ skin) (hbox : GoodBox bMin bMax (cutoff + skin) csf) (hcsf : 1 ≤ csf)
    (t : VLPTraversal) (ht : t.Applicable f.newton3 (CellBlock.rebuild id bMin bMax (cutoff + skin) csf) (cutoff + skin))
    (hf : FunctorFor .c18 pos₀ (cutoff + skin) f) (hh : ∀ p, f.isHalo p = decide (own₀ p = .halo))
    (hs : SortedIn (CellBlock.rebuild id bMin bMax (cutoff + skin) csf) pos₀ cells)
    (hk : ListsKept bMin bMax skin f.soa pos₀ pos own₀ own cells.flatten)
    (hin : RemInput cells.flatten pb hb) (hhb : ∀ x ∈ hb.flatten, own x = .halo) (soa : Bool) (calls : List (PairCall P))
    (hc : vlpInteractions pos₀ pos own₀ own (CellBlock.rebuild id bMin bMax (cutoff + skin) csf) cutoff skin f t soa cells pb hb = some calls)
    (a b : P) :
    timesReceived calls a b ≤ 1 ∧ (timesReceived calls a b ≠ 0 →
      a ∈ cells.flatten ++ (pb.flatten ++ hb.flatten) ∧ b ∈ cells.flatten ++ (pb.flatten ++ hb.flatten) ∧ a ≠ b) := by
  obtain ⟨s, h, -⟩ := vlpBuild_spec (own₀ := own₀) hbox hcsf hf hs
  unfold vlpInteractions at hc
  rw [h, Option.map_some] at hc
  cases hc
  have h := (vlp_complete hcut hskin hbox hcsf t ht hf hh hs hk soa h).with_remainder hcut hin hhb f.newton3
  exact ⟨h.most a b, h.mem a b⟩

/-- What the user sees: the sum over all other particles. -/
theorem C59_accumulates_sum {M : Type} [AddCommMonoid M] (hcut : 0 ≤ cutoff) (hskin : 0 ≤ skin)
    (hbox : GoodBox bMin bMax (cutoff + skin) csf) (hcsf : 1 ≤ csf)
    (t : VLPTraversal) (ht : t.Applicable f.newton3 (CellBlock.rebuild id bMin bMax (cutoff + skin) csf) (cutoff + skin))
    (hf : FunctorFor .c18 pos₀ (cutoff + skin) f) (hh : ∀ p, f.isHalo p = decide (own₀ p = .halo))
    (hs : SortedIn (CellBlock.rebuild id bMin bMax (cutoff + skin) csf) pos₀ cells)
    (hk : ListsKept bMin bMax skin f.soa pos₀ pos own₀ own cells.flatten)
    (hin : RemInput cells.flatten pb hb) (hhb : ∀ x ∈ hb.flatten, own x = .halo) (soa : Bool) (F : P → P → M)
    (hz : ∀ a b, (own b = .dummy ∨ cutoff * cutoff ≤ distSq (pos a) (pos b)) → F a b = 0) (a : P)
    (ha : a ∈ cells.flatten ++ (pb.flatten ++ hb.flatten)) (hao : own a = .owned) :
    (vlpInteractions pos₀ pos own₀ own (CellBlock.rebuild id bMin bMax (cutoff + skin) csf) cutoff skin f t soa cells pb hb).map
      (fun calls => accumulated F calls a) = some (((cells.flatten ++ (pb.flatten ++ hb.flatten)).filter fun b => b ≠ a).map (F a)).sum := by
  obtain ⟨s, h, -⟩ := vlpBuild_spec (own₀ := own₀) hbox hcsf hf hs
  unfold vlpInteractions
  rw [h, Option.map_some, Option.map_some]
  exact congrArg some (((vlp_complete hcut hskin hbox hcsf t ht hf hh hs hk soa h).with_remainder hcut hin hhb f.newton3).accumulated
    hin.nodup F hz a ha hao)

theorem writtenBy_perm {P : Type} {l l' : List (PairCall P)} (h : l.Perm l') {p : P} : p ∈ writtenBy l ↔ p ∈ writtenBy l' :=
  (h.flatMap_right _).mem_iff

/-- Packages of base cells that may be processed at the same time (colours of `vlp_c01` and `vlp_c18`, slices of `vlp_sliced_c02`) update disjoint
sets of particles. -/
theorem C59_race_free (hbox : GoodBox bMin bMax il csf) (hcsf : 1 ≤ csf) (t : VLCTraversal) (hlock : ∀ thick, t ≠ .sliced thick)
    (ht : t.Applicable f.newton3 (CellBlock.rebuild id bMin bMax il csf).dims (CellBlock.rebuild id bMin bMax il csf).cellLength il)
    (hf : FunctorFor .c18 pos₀ il f) (hs : SortedIn (CellBlock.rebuild id bMin bMax il csf) pos₀ cells) (soa : Bool) (s : VLPLists P)
    (h : vlpBuild pos₀ own₀ (CellBlock.rebuild id bMin bMax il csf) il f cells = some s) (phase : List (List (V3 Nat)))
    (hphase : phase ∈ t.bases (CellBlock.rebuild id bMin bMax il csf).dims (CellBlock.rebuild id bMin bMax il csf).cellLength il)
    (n m : Nat) (hn : n < phase.length) (hm : m < phase.length) (hnm : n ≠ m) (p : P)
    (hp : p ∈ writtenBy (vlpPackage soa f.newton3 (CellBlock.rebuild id bMin bMax il csf).dims cells.flatten cells s phase[n])) :
    p ∉ writtenBy (vlpPackage soa f.newton3 (CellBlock.rebuild id bMin bMax il csf).dims cells.flatten cells s phase[m]) := by
  have hB := (vlcBases_facts hbox t f.newton3 ht).2
  have hin : ∀ k (hk : k < phase.length), ∀ b ∈ phase[k], InGrid b (CellBlock.rebuild id bMin bMax il csf).dims := by
    intro k hk b hb
    exact ((hB b).1 (List.mem_flatten.2 ⟨_, List.mem_flatten.2 ⟨phase, hphase, List.getElem_mem hk⟩, hb⟩)).1
  rw [writtenBy_perm (vlpPackage_perm hbox hcsf hf hs soa h (hin n hn))] at hp
  rw [writtenBy_perm (vlpPackage_perm hbox hcsf hf hs soa h (hin m hm))]
  exact C57_vlc_race_free hbox t hlock ht hf hs soa phase hphase n m hn hm hnm p hp

/-- `vlp_sliced` and `vlp_sliced_balanced`: in no reachable state of the locks do two slices process layers that update the same particle. -/
theorem C59_sliced_race_free (hbox : GoodBox bMin bMax il csf) (hcsf : 1 ≤ csf) (thick : List Nat)
    (ht : (VLCTraversal.sliced thick).Applicable f.newton3 (CellBlock.rebuild id bMin bMax il csf).dims
      (CellBlock.rebuild id bMin bMax il csf).cellLength il)
    (hf : FunctorFor .c18 pos₀ il f) (hs : SortedIn (CellBlock.rebuild id bMin bMax il csf) pos₀ cells) (soa : Bool) (v : VLPLists P)
    (hv : vlpBuild pos₀ own₀ (CellBlock.rebuild id bMin bMax il csf) il f cells = some v)
    (σ : SlicedState) (hr : SlicedReach ((doubleOverlap (overlapOf il (CellBlock.rebuild id bMin bMax il csf).cellLength).toNat).get
      (longestAxis (CellBlock.rebuild id bMin bMax il csf).dims)) thick σ)
    (s s' d e : Nat) (r r' : List SliceAct) (hne : s ≠ s')
    (h : σ.rest s = .process d :: r) (h' : σ.rest s' = .process e :: r')
    (hd : d < (CellBlock.rebuild id bMin bMax il csf).dims.get (longestAxis (CellBlock.rebuild id bMin bMax il csf).dims))
    (he : e < (CellBlock.rebuild id bMin bMax il csf).dims.get (longestAxis (CellBlock.rebuild id bMin bMax il csf).dims)) (p : P)
    (hp : p ∈ writtenBy (vlpPackage soa f.newton3 (CellBlock.rebuild id bMin bMax il csf).dims cells.flatten cells
      v (layerBases false (CellBlock.rebuild id bMin bMax il csf).dims
        (doubleOverlap (overlapOf il (CellBlock.rebuild id bMin bMax il csf).cellLength).toNat) d))) :
    p ∉ writtenBy (vlpPackage soa f.newton3 (CellBlock.rebuild id bMin bMax il csf).dims cells.flatten cells
      v (layerBases false (CellBlock.rebuild id bMin bMax il csf).dims
        (doubleOverlap (overlapOf il (CellBlock.rebuild id bMin bMax il csf).cellLength).toNat) e)) := by
  have hin : ∀ d, d < (CellBlock.rebuild id bMin bMax il csf).dims.get (longestAxis (CellBlock.rebuild id bMin bMax il csf).dims) →
      ∀ b ∈ layerBases false (CellBlock.rebuild id bMin bMax il csf).dims
        (doubleOverlap (overlapOf il (CellBlock.rebuild id bMin bMax il csf).cellLength).toNat) d,
      InGrid b (CellBlock.rebuild id bMin bMax il csf).dims := by
    intro d hd b hb
    exact ((layers_false _ _ _ rfl).2 b).1 (List.mem_flatMap.2 ⟨d, List.mem_range.2 hd, hb⟩)
  rw [writtenBy_perm (vlpPackage_perm hbox hcsf hf hs soa hv (hin d hd))] at hp
  rw [writtenBy_perm (vlpPackage_perm hbox hcsf hf hs soa hv (hin e he))]
  exact C57_vlc_sliced_race_free hbox thick ht hf hs soa σ hr s s' d e r r' hne h h' p hp

/-- `vlp_c08`: base cells of one colour update disjoint sets of particles. -/
theorem C59_c08_race_free (hbox : GoodBox bMin bMax il csf) (hcsf : 1 ≤ csf)
    (hf : FunctorFor .c18 pos₀ il f) (hs : SortedIn (CellBlock.rebuild id bMin bMax il csf) pos₀ cells) (soa : Bool) (s : VLPLists P)
    (h : vlpBuild pos₀ own₀ (CellBlock.rebuild id bMin bMax il csf) il f cells = some s) (colour : List (List (PairCall P)))
    (hcolour : colour ∈ vlpC08Calls soa f.newton3 (CellBlock.rebuild id bMin bMax il csf) il cells.flatten cells s)
    (n m : Nat) (hn : n < colour.length) (hm : m < colour.length) (hnm : n ≠ m) (p : P) (hp : p ∈ writtenBy colour[n]) :
    p ∉ writtenBy colour[m] := by
  have hd := c18Dims_of hbox
  obtain ⟨hil, hx, hy, hz⟩ := hd.pos
  have facts := c08_facts hbox
  have hperm := fun op (hop : ValidOp op) => vlpOp_perm (own₀ := own₀) hbox hcsf hf hs soa h hop
  have hcalls := c18_calls hbox hf hs
  set blk := CellBlock.rebuild id bMin bMax il csf with hblk
  unfold vlpC08Calls at hcolour
  obtain ⟨bases, hbases, rfl⟩ := List.mem_map.1 hcolour
  simp only [List.length_map] at hn hm
  simp only [List.getElem_map, vlpC08Base_eq] at hp ⊢
  have hcol : bases.map (c08ProcessBaseCell blk.dims blk.cellLength il) ∈ lcC08 blk.dims blk.cellLength il := List.mem_map.2 ⟨bases, hbases, rfl⟩
  have key : ∀ k (hk : k < bases.length), p ∈ writtenBy ((c08ProcessBaseCell blk.dims blk.cellLength il bases[k]).flatMap
      (vlpOp soa f.newton3 cells.flatten cells s)) → ∃ op ∈ c08ProcessBaseCell blk.dims blk.cellLength il bases[k],
        ((particleToCell cells p).1 : Int) ∈ touched op := by
    intro k hk hp
    obtain ⟨c, hc, hpc⟩ := mem_writtenBy.1 hp
    obtain ⟨op, hop, hc⟩ := List.mem_flatMap.1 hc
    refine ⟨op, hop, ?_⟩
    have hv := validOp_of (facts.valid op (List.mem_flatten.2 ⟨_, List.mem_flatten.2 ⟨_, hcol, List.mem_map.2 ⟨_, List.getElem_mem hk, rfl⟩⟩, hop⟩))
    have hc := (hperm op hv).mem_iff.1 hc
    have hhit := (List.mem_filter.1 hc).2
    have : p = c.p ∨ p = c.q := by rcases hpc with h | ⟨-, h⟩ <;> simp [h]
    cases op with
    | self i =>
      simp only [hits, true_and, decide_eq_true_eq] at hhit
      simp only [touched, List.mem_singleton]
      rcases this with rfl | rfl <;> omega
    | pair i j dir =>
      simp only [hits, true_and, decide_eq_true_eq] at hhit
      simp only [touched, List.mem_cons, List.not_mem_nil, or_false]
      rcases this with rfl | rfl <;> omega
  intro hp'
  obtain ⟨op₁, h1, t1⟩ := key n hn hp
  obtain ⟨op₂, h2, t2⟩ := key m hm hp'
  exact C08_lc_c08_race_free blk.dims blk.cellLength il hil hx hy hz _ hcol n m (by simpa using hn) (by simpa using hm) hnm op₁ op₂
    (by rw [List.getElem_map]; exact h1) (by rw [List.getElem_map]; exact h2) _ t1 t2

end

/-! Non-vacuity: the situation of the example of C53. -/

private def exF59 (soa newton3 : Bool) : CellFunctorCfg Particle :=
  ⟨fun p => p.own = .halo, soa, newton3, true, 0, 3/4 + 1/4, ⟨1, 1, 1⟩, sortByProjection Particle.pos⟩

private theorem exF59_for (soa newton3 : Bool) : FunctorFor .c18 Particle.pos (3/4 + 1/4) (exF59 soa newton3) :=
  ⟨rfl, rfl, (fun h => by cases h), sortByProjection_sorted _⟩

private theorem exBox59 : GoodBox ⟨0, 0, 0⟩ ⟨1, 1, 1⟩ (3/4 + 1/4) 1 := by
  have e : (3/4 + 1/4 : Rat) = 1 := by norm_num
  rw [e]; exact exGood

private theorem exRem59 : RemInput exCells.flatten exVecs [[]] := ⟨by decide +kernel, rfl⟩

private def exPos59 (p : Particle) : V3 Rat := ⟨p.pos.x + 1/20, p.pos.y, p.pos.z⟩

private def exOwn59 (p : Particle) : Ownership := if p = exOwned2 then .dummy else p.own

private theorem exKept59 (soaBuild : Bool) : ListsKept ⟨0, 0, 0⟩ ⟨1, 1, 1⟩ (1/4) soaBuild Particle.pos exPos59 Particle.own exOwn59 exCells.flatten := by
  refine ⟨?_, by decide +kernel, fun _ => by decide +kernel⟩
  intro p _
  unfold distSq exPos59
  simp only [add_sub_cancel_left, sub_self]
  norm_num

example (soaBuild soa newton3 : Bool) (t : VLPTraversal) (ht : t ∈ [VLPTraversal.perCell .c18, .c08]) :
    (vlpInteractions Particle.pos exPos59 Particle.own exOwn59 (CellBlock.rebuild id ⟨0, 0, 0⟩ ⟨1, 1, 1⟩ (3/4 + 1/4) 1)
      (3/4) (1/4) (exF59 soaBuild newton3) t soa exCells exVecs [[]]).map (fun calls => timesReceived calls exOwned ⟨5, ⟨1/8, 1/8, 1/8⟩, .owned⟩) =
      some 1 := by
  have h1 : exOwned ∈ exCells.flatten ++ (exVecs.flatten ++ [[]].flatten) := by decide +kernel
  have h2 : (⟨5, ⟨1/8, 1/8, 1/8⟩, .owned⟩ : Particle) ∈ exCells.flatten ++ (exVecs.flatten ++ [[]].flatten) := by decide +kernel
  have h3 : exOwned ≠ (⟨5, ⟨1/8, 1/8, 1/8⟩, .owned⟩ : Particle) := by decide +kernel
  have h4 : exOwn59 exOwned = .owned ∧ exOwn59 ⟨5, ⟨1/8, 1/8, 1/8⟩, .owned⟩ ≠ .dummy := by decide +kernel
  have h5 : distSq (exPos59 exOwned) (exPos59 ⟨5, ⟨1/8, 1/8, 1/8⟩, .owned⟩) < 3/4 * (3/4) := by decide +kernel
  refine C59_every_neighbour_once (by norm_num) (by norm_num) exBox59 (by norm_num) t ?_ (exF59_for soaBuild newton3)
    (fun _ => rfl) exSortedIn (exKept59 _) exRem59 (by simp) soa _ _ h1 h2 h3 h4.1 h4.2 h5
  simp only [List.mem_cons, List.not_mem_nil, or_false] at ht
  rcases ht with rfl | rfl <;> trivial

/-- The lists that are built there. -/
example : (vlpBuild Particle.pos Particle.own (CellBlock.rebuild id ⟨0, 0, 0⟩ ⟨1, 1, 1⟩ (3/4 + 1/4) 1) (3/4 + 1/4) (exF59 true true)
    exCells).isSome = true :=
  C59_build_in_range exBox59 (by norm_num) (exF59_for true true) exSortedIn

end Verif
