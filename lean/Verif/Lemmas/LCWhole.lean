import Verif.Lemmas.LCInteract
import Verif.Lemmas.Skin
import Verif.Lemmas.LCStore
import Verif.Props.C09
import Verif.Props.C11
import Verif.Props.C12
import Verif.Props.C13
import Verif.Props.C15
import Verif.Props.C18
/-! The linked-cells traversals as a whole: facts about their cell functor calls in a common form. -/
namespace Verif
open Spec

theorem Coded.timesSelf_le_one {α : Type} {dims : V3 Nat} {ops : List CellOp} {Q : List α} {f g : α → V3 Nat} [DecidableEq α]
    (h : Coded dims ops Q f g) {a : V3 Nat} (ha : InGrid a dims)
    (huniq : ∀ q ∈ Q, ∀ r ∈ Q, f q = f r → g q = g r → q = r) :
    Spec.timesSelf ops (threeToOneD a dims) ≤ 1 := by
  by_cases hex : ∃ q ∈ Q, f q = a ∧ g q = a
  · exact Nat.le_of_eq (h.timesSelf_one ha hex huniq)
  · rw [h.timesSelf ha, List.countP_eq_zero.2]
    · omega
    · intro q hq hp
      exact hex ⟨q, hq, by simpa using hp⟩

theorem Coded.timesOrdered_le_one {α : Type} {dims : V3 Nat} {ops : List CellOp} {Q : List α} {f g : α → V3 Nat} [DecidableEq α]
    (h : Coded dims ops Q f g) {a b : V3 Nat} (ha : InGrid a dims) (hb : InGrid b dims) (hab : a ≠ b)
    (huniq : ∀ q ∈ Q, ∀ r ∈ Q, f q = f r → g q = g r → q = r) :
    Spec.timesOrdered ops (threeToOneD a dims) (threeToOneD b dims) ≤ 1 := by
  by_cases hex : ∃ q ∈ Q, f q = a ∧ g q = b
  · exact Nat.le_of_eq (h.timesOrdered ha hb hab hex huniq)
  · obtain ⟨d, rfl⟩ := h.eq
    unfold Spec.timesOrdered
    rw [List.countP_map, List.countP_eq_zero.2]
    · omega
    · intro q hq hp
      simp only [Function.comp, mkOp] at hp
      split_ifs at hp with e
      simp only [decide_eq_true_eq, flat_iff (h.gridf q hq) ha, flat_iff (h.gridg q hq) hb] at hp
      exact hex ⟨q, hq, hp⟩

theorem c08_self_le_one {dims : V3 Nat} {cl : V3 Rat} {il : Rat} (hp : C08Pos cl il) {a : V3 Nat} (ha : InGrid a dims) :
    timesSelf (lcC08 dims cl il).flatten.flatten (threeToOneD a dims) ≤ 1 := by
  unfold timesSelf
  rw [lcC08_flatten, List.countP_map]
  refine countP_le_one_of_unique (nodup_basePairs (nodup_colorTraversal _ _ _)
    (nodup_c08Indices cl il)) ?_
  intro r hr q hq hpr hpq
  obtain ⟨c, x, y, z, d⟩ := r
  obtain ⟨c', x', y', z', d'⟩ := q
  simp only [Function.comp, cellOpOf] at hpr hpq
  split_ifs at hpr with h
  split_ifs at hpq with h'
  simp only [decide_eq_true_eq] at hpr hpq
  exact c08Match_unique hp hr hq ((c08Match_iff hp hr ha ha).1 ⟨hpr, by rw [← h]; exact hpr⟩)
    ((c08Match_iff hp hq ha ha).1 ⟨hpq, by rw [← h']; exact hpq⟩)

/-- When the traversals may be used: `isApplicable` of LCC04Traversal.h and LCC04HCPTraversal.h (cells at least as long as the interaction length), and
slices made by the two lock-based sliced traversals. -/
def LCTraversal.Applicable (t : LCTraversal) (dims : V3 Nat) (cl : V3 Rat) (il : Rat) : Prop :=
  match t with
  | .c04 | .c04HCP => il ≤ cl.x ∧ il ≤ cl.y ∧ il ≤ cl.z
  | .slicedLock thick =>
      LockSlices true (dims.get (longestAxis dims)) ((overlapOf il cl).toNat.get (longestAxis dims)) thick
  | _ => True

/-- What all traversals have in common. -/
structure LCFacts (bMin bMax : V3 Rat) (il csf : Rat) (both : Bool) (ops : List CellOp) : Prop where
  valid : ∀ op ∈ ops, (∀ i ∈ touched op, 0 ≤ i ∧ i < numCells (CellBlock.rebuild id bMin bMax il csf).dims) ∧ (touched op).Nodup
  dir : ∀ a b dir, InGrid a (CellBlock.rebuild id bMin bMax il csf).dims → InGrid b (CellBlock.rebuild id bMin bMax il csf).dims →
    CellOp.pair (threeToOneD a (CellBlock.rebuild id bMin bMax il csf).dims)
      (threeToOneD b (CellBlock.rebuild id bMin bMax il csf).dims) dir ∈ ops →
    dir = cellDirection (CellBlock.rebuild id bMin bMax il csf).cellLength a b
  once : ∀ p q, distSq p q ≤ il * il → InBox p bMin bMax →
    ops.countP (hits both (threeToOneD ((CellBlock.rebuild id bMin bMax il csf).indexOfPosition id p) (CellBlock.rebuild id bMin bMax il csf).dims)
      (threeToOneD ((CellBlock.rebuild id bMin bMax il csf).indexOfPosition id q) (CellBlock.rebuild id bMin bMax il csf).dims)) = 1
  most : ∀ a b, InGrid a (CellBlock.rebuild id bMin bMax il csf).dims → InGrid b (CellBlock.rebuild id bMin bMax il csf).dims →
    ops.countP (hits both (threeToOneD a (CellBlock.rebuild id bMin bMax il csf).dims)
      (threeToOneD b (CellBlock.rebuild id bMin bMax il csf).dims)) ≤ 1

section
variable {bMin bMax : V3 Rat} {il csf : Rat} {both : Bool} {ops ops' : List CellOp}

theorem LCFacts.perm (h : LCFacts bMin bMax il csf both ops) (hp : ops'.Perm ops) : LCFacts bMin bMax il csf both ops' := by
  refine ⟨fun op ho => h.valid op (hp.subset ho), fun a b dir ha hb ho => h.dir a b dir ha hb (hp.subset ho), fun p q h1 h2 => ?_,
    fun a b ha hb => ?_⟩
  · rw [hp.countP_eq]; exact h.once p q h1 h2
  · rw [hp.countP_eq]; exact h.most a b ha hb

theorem flat_ne {dims a b : V3 Nat} (ha : InGrid a dims) (hb : InGrid b dims) (hab : a ≠ b) :
    (threeToOneD a dims : Int) ≠ threeToOneD b dims := fun h => hab (flat_inj ha hb (by exact_mod_cast h))

theorem validOp_of {dims : V3 Nat} {op : CellOp} (h : (∀ i ∈ touched op, 0 ≤ i ∧ i < numCells dims) ∧ (touched op).Nodup) :
    ValidOp op := ⟨fun i hi => (h.1 i hi).1, h.2⟩

theorem LCFacts.of_both (valid : ∀ op ∈ ops, (∀ i ∈ touched op, 0 ≤ i ∧ i < numCells (CellBlock.rebuild id bMin bMax il csf).dims) ∧ (touched op).Nodup)
    (hbox : GoodBox bMin bMax il csf)
    (dir : ∀ a b dir, InGrid a (CellBlock.rebuild id bMin bMax il csf).dims → InGrid b (CellBlock.rebuild id bMin bMax il csf).dims →
      CellOp.pair (threeToOneD a (CellBlock.rebuild id bMin bMax il csf).dims)
        (threeToOneD b (CellBlock.rebuild id bMin bMax il csf).dims) dir ∈ ops →
      dir = cellDirection (CellBlock.rebuild id bMin bMax il csf).cellLength a b)
    (once : ∀ p q : V3 Rat, distSq p q ≤ il * il → InBox p bMin bMax →
      let b := CellBlock.rebuild id bMin bMax il csf
      let cp := b.indexOfPosition id p
      let cq := b.indexOfPosition id q
      (cp ≠ cq → timesPair ops (threeToOneD cp b.dims) (threeToOneD cq b.dims) = 1) ∧
      (cp = cq → timesSelf ops (threeToOneD cp b.dims) = 1))
    (most : ∀ a b, InGrid a (CellBlock.rebuild id bMin bMax il csf).dims → InGrid b (CellBlock.rebuild id bMin bMax il csf).dims → a ≠ b →
      timesPair ops (threeToOneD a (CellBlock.rebuild id bMin bMax il csf).dims) (threeToOneD b (CellBlock.rebuild id bMin bMax il csf).dims) ≤ 1)
    (mostSelf : ∀ a, InGrid a (CellBlock.rebuild id bMin bMax il csf).dims →
      timesSelf ops (threeToOneD a (CellBlock.rebuild id bMin bMax il csf).dims) ≤ 1) :
    LCFacts bMin bMax il csf true ops := by
  refine ⟨valid, dir, fun p q h1 h2 => ?_, fun a b ha hb => ?_⟩
  · have h := once p q h1 h2
    simp only at h
    by_cases e : (CellBlock.rebuild id bMin bMax il csf).indexOfPosition id p = (CellBlock.rebuild id bMin bMax il csf).indexOfPosition id q
    · rw [← e, hits_self (fun op ho => validOp_of (valid op ho))]; exact h.2 e
    · rw [hits_pair (flat_ne (hbox.inGrid p) (hbox.inGrid q) e)]; exact h.1 e
  · by_cases e : a = b
    · subst e; rw [hits_self (fun op ho => validOp_of (valid op ho))]; exact mostSelf a ha
    · rw [hits_pair (flat_ne ha hb e)]; exact most a b ha hb e

theorem c18Dims_of (hbox : GoodBox bMin bMax il csf) :
    C18Dims (CellBlock.rebuild id bMin bMax il csf).dims (CellBlock.rebuild id bMin bMax il csf).cellLength il := by
  obtain ⟨hx, hy, hz⟩ := hbox.cl_pos
  obtain ⟨h1, h2, h3⟩ := hbox.dims_ge
  obtain ⟨o1, o2, o3⟩ := hbox.overlap_le
  refine ⟨⟨hbox.ilPos, hx, hy, hz⟩, ?_, ?_, ?_⟩ <;> omega

theorem c08_facts (hbox : GoodBox bMin bMax il csf) : LCFacts bMin bMax il csf true
    (lcC08 (CellBlock.rebuild id bMin bMax il csf).dims (CellBlock.rebuild id bMin bMax il csf).cellLength il).flatten.flatten := by
  have h := c18Dims_of hbox
  obtain ⟨hil, hx, hy, hz⟩ := h.pos
  refine .of_both (C07_lc_c08_valid_cells _ _ _ hil hx hy hz) hbox (fun a b dir ha hb ho => lcC08_dir h.pos ha hb ho)
    (fun p q h1 h2 => C07_lc_c08_positions _ _ _ _ hbox p q h1 (.inl h2)) (C07_lc_c08_pair_at_most_once _ _ _ hil hx hy hz)
    (fun a ha => c08_self_le_one h.pos ha)

theorem c18_facts (hbox : GoodBox bMin bMax il csf) : LCFacts bMin bMax il csf true
    (lcC18 (CellBlock.rebuild id bMin bMax il csf).dims (CellBlock.rebuild id bMin bMax il csf).cellLength il).flatten.flatten := by
  have h := c18Dims_of hbox
  obtain ⟨⟨hil, hx, hy, hz⟩, hdx, hdy, hdz⟩ := c18Dims_of hbox
  refine .of_both (C09_lc_c18_valid_cells _ _ _ hil hx hy hz hdx hdy hdz) hbox (fun a b dir ha hb ho => lcC18_dir h ha hb ho)
    (fun p q h1 h2 => C09_lc_c18_positions _ _ _ _ hbox p q h1 (.inl h2))
    (C09_lc_c18_pair_at_most_once _ _ _ hil hx hy hz hdx hdy hdz)
    (fun a ha => (c18_coded h).timesSelf_le_one ha (c18_unique h))

theorem c01_facts (hbox : GoodBox bMin bMax il csf) : LCFacts bMin bMax il csf false
    (lcC01 (CellBlock.rebuild id bMin bMax il csf).dims (CellBlock.rebuild id bMin bMax il csf).cellLength il).flatten.flatten := by
  have h := c18Dims_of hbox
  obtain ⟨⟨hil, hx, hy, hz⟩, hdx, hdy, hdz⟩ := c18Dims_of hbox
  have hv := C11_lc_c01_valid_cells _ _ _ hil hx hy hz hdx hdy hdz
  refine ⟨hv, (fun a b dir ha hb ho => lcC01_dir h ha hb ho), fun p q h1 h2 => ?_, fun a b ha hb => ?_⟩
  · have h := C11_lc_c01_positions _ _ _ _ hbox p q h1 h2
    simp only at h
    by_cases e : (CellBlock.rebuild id bMin bMax il csf).indexOfPosition id p = (CellBlock.rebuild id bMin bMax il csf).indexOfPosition id q
    · rw [← e, hits_self (fun op ho => validOp_of (hv op ho))]; exact h.2 e
    · rw [hits_ordered (flat_ne (hbox.inGrid p) (hbox.inGrid q) e)]; exact h.1 e
  · by_cases e : a = b
    · subst e; rw [hits_self (fun op ho => validOp_of (hv op ho))]
      exact (c01_coded h).timesSelf_le_one ha (c01_unique h)
    · rw [hits_ordered (flat_ne ha hb e)]
      exact (c01_coded h).timesOrdered_le_one ha hb e (c01_unique h)

theorem longest_dims (hbox : GoodBox bMin bMax il csf) :
    (overlapOf il (CellBlock.rebuild id bMin bMax il csf).cellLength).toNat.get (longestAxis (CellBlock.rebuild id bMin bMax il csf).dims) + 1 ≤
      (CellBlock.rebuild id bMin bMax il csf).dims.get (longestAxis (CellBlock.rebuild id bMin bMax il csf).dims) := by
  have h := c18Dims_of hbox
  obtain ⟨o1, o2, o3⟩ := h.pos.ov
  obtain ⟨⟨hil, hx, hy, hz⟩, hdx, hdy, hdz⟩ := h
  unfold V3.get
  split
  · simp only [V3.toNat]; omega
  · split
    · simp only [V3.toNat]; omega
    · simp only [V3.toNat]; omega

theorem lcTraversal_facts (hbox : GoodBox bMin bMax il csf) (t : LCTraversal)
    (ht : t.Applicable (CellBlock.rebuild id bMin bMax il csf).dims (CellBlock.rebuild id bMin bMax il csf).cellLength il) :
    LCFacts bMin bMax il csf t.bidirectional
      (t.ops (CellBlock.rebuild id bMin bMax il csf).dims (CellBlock.rebuild id bMin bMax il csf).cellLength il).flatten.flatten := by
  obtain ⟨hil, hx, hy, hz⟩ := (c18Dims_of hbox).pos
  have h08 := c08_facts hbox
  have hl := longest_dims hbox
  cases t with
  | c08 => exact h08
  | c18 => exact c18_facts hbox
  | c01 => exact c01_facts hbox
  | c04 => exact h08.perm (lcC04_perm _ _ _ hil ht.1 ht.2.1 ht.2.2)
  | c04HCP => exact h08.perm (lcC04HCP_perm _ _ _ hil ht.1 ht.2.1 ht.2.2)
  | slicedLock thick => exact h08.perm (lcSliced_perm _ _ _ thick hl ht)
  | slicedC02 => exact h08.perm (lcSlicedC02_perm _ _ _ hil hx hy hz (by omega))

end

/-! ### Particles -/

section
variable {P : Type} [DecidableEq P] {f : CellFunctorCfg P} {pos home : P → V3 Rat} {a b : P} {bMin bMax : V3 Rat} {il csf : Rat}

/-- The cells of a linked-cells container: one list per cell, no particle stored twice, every particle in the cell that its `home`
(the position it had when it was sorted in) belongs to. -/
structure SortedIn (b : CellBlock) (home : P → V3 Rat) (cells : List (List P)) : Prop where
  length : cells.length = numCells b.dims
  nodup : cells.flatten.Nodup
  home : ∀ k, ∀ p ∈ cells.getD k [], threeToOneD (b.indexOfPosition id (home p)) b.dims = k

omit [DecidableEq P] in
theorem cellAt_lcCells {blk : CellBlock} {cells : List (List P)} (i : Int) :
    (cellAt (lcCells blk cells) i).particles = cells.getD i.toNat [] ∧
    (i.toNat < cells.length → (cellAt (lcCells blk cells) i).hasOwned = !blk.cellCanContainHalo i.toNat) := by
  unfold cellAt lcCells
  by_cases h : i.toNat < cells.length
  · simp [List.getD_eq_getElem?_getD, List.getElem?_map, List.getElem?_range h]
  · refine ⟨?_, fun h' => absurd h' h⟩
    have h' : cells.length ≤ i.toNat := by omega
    rw [List.getD_eq_getElem?_getD, List.getD_eq_getElem?_getD, List.getElem?_eq_none (by simpa using h'),
      List.getElem?_eq_none h']
    rfl

omit [DecidableEq P] in
theorem cells_ok {cells : List (List P)} {blk : CellBlock} (hs : SortedIn blk home cells) :
    CellsOk (lcCells blk cells) (fun p => (threeToOneD (blk.indexOfPosition id (home p)) blk.dims : Int)) := by
  constructor
  · intro i
    rw [(cellAt_lcCells i).1]
    rw [List.getD_eq_getElem?_getD]
    cases h : cells[i.toNat]? with
    | none => simp
    | some l =>
      simp only [Option.getD_some]
      exact (List.nodup_flatten.1 hs.nodup).1 l (List.mem_of_getElem? h)
  · intro i p hi hp
    rw [(cellAt_lcCells i).1] at hp
    have := hs.home _ p hp
    rw [this]; omega

omit [DecidableEq P] in
theorem mem_own_cell {cells : List (List P)} {blk : CellBlock} (hs : SortedIn blk home cells) {p : P} (hp : p ∈ cells.flatten) :
    p ∈ (cellAt (lcCells blk cells) (threeToOneD (blk.indexOfPosition id (home p)) blk.dims : Int)).particles ∧
    threeToOneD (blk.indexOfPosition id (home p)) blk.dims < cells.length := by
  rw [(cellAt_lcCells _).1]
  obtain ⟨l, hl, hp⟩ := List.mem_flatten.1 hp
  obtain ⟨k, hk, rfl⟩ := List.getElem_of_mem hl
  have hk' : cells.getD k [] = cells[k] := by simp [List.getD_eq_getElem?_getD, hk]
  have := hs.home k p (by rw [hk']; exact hp)
  rw [this]
  simp only [Int.toNat_natCast]
  rw [hk']
  exact ⟨hp, hk⟩

/-- Current distance at most `cutoff`, both moved by at most half the skin: the homes are within the interaction length. -/
theorem home_near {p q p0 q0 : V3 Rat} {cutoff skin : Rat} (hc : 0 ≤ cutoff) (hk : 0 ≤ skin) (h : distSq p q ≤ cutoff * cutoff)
    (h1 : 4 * distSq p p0 ≤ skin * skin) (h2 : 4 * distSq q q0 ≤ skin * skin) :
    distSq p0 q0 ≤ (cutoff + skin) * (cutoff + skin) := by
  have e1 : distSq p0 p ≤ (skin / 2) * (skin / 2) := by rw [distSq_symm]; linarith
  have e2 : distSq q q0 ≤ (skin / 2) * (skin / 2) := by linarith
  have k1 := distSq_triangle (by linarith) hc e1 h
  have k2 := distSq_triangle (by linarith) (by linarith) k1 e2
  calc distSq p0 q0 ≤ _ := k2
    _ = _ := by ring

theorem lc_notBehind (hbox : GoodBox bMin bMax il csf) {both : Bool} {ops : List CellOp} (hf : LCFacts bMin bMax il csf both ops)
    {cells : List (List P)} (hs : SortedIn (CellBlock.rebuild id bMin bMax il csf) home cells)
    (hm : ∀ p ∈ cells.flatten, 4 * distSq (pos p) (home p) ≤ il * il) {i j : Int} {dir : V3 Rat}
    (ho : CellOp.pair i j dir ∈ ops) :
    NotBehind pos dir il (cellAt (lcCells (CellBlock.rebuild id bMin bMax il csf) cells) i).particles
      (cellAt (lcCells (CellBlock.rebuild id bMin bMax il csf) cells) j).particles := by
  have hv := hf.valid _ ho
  obtain ⟨i1, i2⟩ := hv.1 i (by simp [touched])
  obtain ⟨j1, j2⟩ := hv.1 j (by simp [touched])
  have hi : (threeToOneD (oneToThreeD i.toNat (CellBlock.rebuild id bMin bMax il csf).dims) (CellBlock.rebuild id bMin bMax il csf).dims : Int) = i := by
    rw [(oneToThreeD_bounds (by omega)).2.1]; omega
  have hj : (threeToOneD (oneToThreeD j.toNat (CellBlock.rebuild id bMin bMax il csf).dims) (CellBlock.rebuild id bMin bMax il csf).dims : Int) = j := by
    rw [(oneToThreeD_bounds (by omega)).2.1]; omega
  have gi : InGrid (oneToThreeD i.toNat (CellBlock.rebuild id bMin bMax il csf).dims) (CellBlock.rebuild id bMin bMax il csf).dims :=
    (oneToThreeD_bounds (by omega)).1
  have gj : InGrid (oneToThreeD j.toNat (CellBlock.rebuild id bMin bMax il csf).dims) (CellBlock.rebuild id bMin bMax il csf).dims :=
    (oneToThreeD_bounds (by omega)).1
  have hd := hf.dir _ _ dir gi gj (by rw [hi, hj]; exact ho)
  rw [hd]
  have mem : ∀ k : Int, ∀ p ∈ (cellAt (lcCells (CellBlock.rebuild id bMin bMax il csf) cells) k).particles, p ∈ cells.flatten := by
    intro k p hp
    rw [(cellAt_lcCells k).1] at hp
    exact mem_flatten_getD'.2 ⟨_, hp⟩
  have key : ∀ k : Int, 0 ≤ k → InGrid (oneToThreeD k.toNat (CellBlock.rebuild id bMin bMax il csf).dims) (CellBlock.rebuild id bMin bMax il csf).dims →
      ∀ p ∈ (cellAt (lcCells (CellBlock.rebuild id bMin bMax il csf) cells) k).particles,
      (CellBlock.rebuild id bMin bMax il csf).indexOfPosition id (home p) = oneToThreeD k.toNat (CellBlock.rebuild id bMin bMax il csf).dims := by
    intro k hk hg p hp
    rw [(cellAt_lcCells k).1] at hp
    have := hs.home _ p hp
    rw [← this, oneToThreeD_threeToOneD (hbox.inGrid (home p))]
  refine C18_cell_direction_not_behind bMin bMax il csf hbox pos home _ _ _ _ (key i i1 gi) (key j j1 gj) ?_
  intro p hp
  rw [List.mem_append] at hp
  rcases hp with hp | hp
  · exact hm p (mem i p hp)
  · exact hm p (mem j p hp)

theorem op_calls {cells : List (PCell P)} {no : P → Int} (hc : CellsOk cells no) (hs : f.Sorts pos) {op : CellOp} (hop : ValidOp op)
    {c : PairCall P} (h : c ∈ f.op cells op) :
    ∃ i j, c.p ∈ (cellAt cells i).particles ∧ c.q ∈ (cellAt cells j).particles ∧ c.p ≠ c.q ∧ c.newton3 = f.newton3 := by
  cases op with
  | self i =>
    refine ⟨i, i, ?_⟩
    simp only [CellFunctorCfg.op] at h
    unfold CellFunctorCfg.cell processCell soaSingle at h
    rw [processCellAoS_eq] at h
    split at h
    · split at h
      · simp at h
      · split at h
        · simp at h
        · obtain ⟨t, ht, h⟩ := List.mem_flatMap.1 h
          have hm := mem_pairLoop ht
          have hne := pairLoop_ne (get := id) (by simpa using hc.nodup i) ht
          simp only [id] at hne
          unfold interactCross at h
          split at h
          · rename_i hn
            simp at h; subst h; exact ⟨hm.1, hm.2, hne, hn.symm⟩
          · rename_i hn
            simp at h
            rcases h with h | h <;> subst h
            · exact ⟨hm.1, hm.2, hne, by simpa using hn⟩
            · exact ⟨hm.2, hm.1, hne.symm, by simpa using hn⟩
    · split at h
      · simp at h
      · split at h
        · simp at h
        · obtain ⟨t, ht, h⟩ := List.mem_flatMap.1 h
          have hm := mem_cellPairs (hs _ _) ht
          have hne := cellPairs_ne (hc.nodup i) (hs _ _) ht
          unfold interactParticles at h
          split at h
          · rename_i hn
            simp at h; subst h; exact ⟨hm.1, hm.2, hne, hn.symm⟩
          · rename_i hn
            rw [List.mem_append] at h
            rcases h with h | h <;> split at h <;> simp at h <;> subst h
            · exact ⟨hm.1, hm.2, hne, by simpa using hn⟩
            · exact ⟨hm.2, hm.1, hne.symm, by simpa using hn⟩
  | pair i j dir =>
    have hi : 0 ≤ i := hop.1 i (by simp [touched])
    have hj : 0 ≤ j := hop.1 j (by simp [touched])
    have hij : i ≠ j := by have := hop.2; simp [touched] at this; exact this
    have hdis : ∀ p q, p ∈ (cellAt cells i).particles → q ∈ (cellAt cells j).particles → p ≠ q := by
      rintro p q h1 h2 rfl
      exact hij ((hc.mem i p hi h1).symm.trans (hc.mem j p hj h2))
    simp only [CellFunctorCfg.op] at h
    unfold CellFunctorCfg.cellPair processCellPair at h
    rw [processCellPairAoS_eq] at h
    split at h
    · split at h
      · simp at h
      · split at h
        · simp at h
        · rw [List.mem_append] at h
          rcases h with h | h
          · obtain ⟨t, ht, rfl⟩ := List.mem_map.1 h
            have := mem_crossLoop ht
            exact ⟨i, j, this.1, this.2, hdis _ _ this.1 this.2, rfl⟩
          · split at h
            · rename_i hn
              obtain ⟨t, ht, rfl⟩ := List.mem_map.1 h
              have := mem_crossLoop ht
              exact ⟨j, i, this.1, this.2, (hdis _ _ this.2 this.1).symm, hn.1.symm⟩
            · simp at h
    · split at h
      · simp at h
      · split at h
        · simp at h
        · obtain ⟨t, ht, h⟩ := List.mem_flatMap.1 h
          have := mem_crossPairs (hs _ _) (hs _ _) ht
          unfold interactCross at h
          split at h
          · rename_i hn
            simp at h; subst h; exact ⟨i, j, this.1, this.2, hdis _ _ this.1 this.2, hn.symm⟩
          · rename_i hn
            rw [List.mem_cons] at h
            rcases h with h | h
            · subst h; exact ⟨i, j, this.1, this.2, hdis _ _ this.1 this.2, by simpa using hn⟩
            · split at h <;> simp at h
              subst h; exact ⟨j, i, this.2, this.1, (hdis _ _ this.1 this.2).symm, by simpa using hn⟩

/-- One way to sort a cell. -/
def sortByProjection (pos : P → V3 Rat) (dir : V3 Rat) (l : List P) : List (Rat × P) :=
  (l.map fun p => ((pos p).dot dir, p)).mergeSort fun x y => decide (x.1 ≤ y.1)

omit [DecidableEq P] in
theorem sortByProjection_sorted (pos : P → V3 Rat) (dir : V3 Rat) (l : List P) : IsSortedView pos dir l (sortByProjection pos dir l) := by
  refine ⟨List.mergeSort_perm _ _, ?_⟩
  have h := List.pairwise_mergeSort (le := fun x y : Rat × P => decide (x.1 ≤ y.1))
    (fun a b c h1 h2 => by simp only [decide_eq_true_eq] at *; exact le_trans h1 h2)
    (fun a b => by simp only [Bool.or_eq_true, decide_eq_true_eq]; exact le_total _ _)
    (l.map fun p => ((pos p).dot dir, p))
  exact h.imp (fun h => by simpa using h)

end

end Verif
