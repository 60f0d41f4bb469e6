import Verif.Lemmas.LCC04Complete
import Verif.Lemmas.LCC04Local
import Verif.Lemmas.OpenCells
import Verif.Props.C80
/-!
# C81 — the traversal `lc_c04_combined_SoA` computes the right forces and loses no particle

The traversal copies the SoA buffers of cells into combined buffers, lets the functor work there, and writes them back. Whatever the threads
find in their combined buffers and in whatever order the rows are processed: in the end the buffer of every cell holds the particles of the
cell, in their order, and every owned particle has got the sum of the contributions of all other particles within the cutoff. Rows that
run at the same time use different cells.
-/
namespace Verif
open Spec

section
variable {P M : Type} [DecidableEq P] [AddCommMonoid M]

/-- The SoA buffers of the cells after the traversal. -/
private theorem combined_result_of {blk : CellBlock} {cl : V3 Rat} {il : Rat} {home : P → V3 Rat} {cells : List (List P)}
    (hs : SortedIn blk home cells) (hov : overlapOf il cl = ⟨1, 1, 1⟩) (hdx : 2 ≤ blk.dims.x) (hA : blk.dims.x + 2 ≤ blk.dims.x * blk.dims.y)
    {f : CellFunctorCfg P} (hsoa : f.soa = true) (hbi : f.bidirectional = true) (F : P → P → M) (dummy : P × M)
    (rows : List ((Nat × Nat) × C04Buffers P M)) (hrows : (rows.map Prod.fst).Perm (c04Rows blk.dims ⟨1, 1, 1⟩).flatten) (m₀ : P → M)
    (k : Nat) :
    lcC04Combined dummy F f.newton3 (fun k => (cells.getD k []).length) (c04Setup blk.dims cl il) blk.dims ⟨1, 1, 1⟩
      (fun k => (cells.getD k []).map fun p => (p, m₀ p)) rows k =
    (cells.getD k []).map fun p => (p, m₀ p + accumulated F (f.run (openCells (lcCells blk cells)) (lcC08 blk.dims cl il)) p) := by
  have hparts : ∀ i, partsOf (lcCells blk cells) i = cells.getD i [] := fun i => by
    unfold partsOf
    rw [(cellAt_lcCells _).1]
    simp
  have hok := cells_ok hs
  have hown : OwnCells (partsOf (lcCells blk cells)) :=
    ⟨fun c => hok.nodup c, fun c c' p h h' => by
      have e1 := hok.mem c p (by omega) h
      have e2 := hok.mem c' p (by omega) h'
      omega⟩
  rw [c04Setup_one hov hdx hA]
  have := lcC04Combined_hold hown (size := fun k => (cells.getD k []).length) (fun c => by rw [hparts]) hdx hA F f.newton3 dummy rows m₀
    (fun k => (cells.getD k []).map fun p => (p, m₀ p)) (fun i => by rw [hparts]; rfl) k
  rw [this, hparts]
  unfold tag
  apply List.map_congr_left
  intro p _
  have e : (rows.flatMap fun r => rowCalls (partsOf (lcCells blk cells)) blk.dims f.newton3 r.1.1 r.1.2 (forUp 0 (blk.dims.x - 1) 1)) =
      (rows.map Prod.fst).flatMap fun r => rowCalls (partsOf (lcCells blk cells)) blk.dims f.newton3 r.1 r.2 (forUp 0 (blk.dims.x - 1) 1) := by
    rw [List.flatMap_map]
  simp only [e, rows_open hov hdx hA hsoa hbi F hrows p]

private theorem wide {bMin bMax : V3 Rat} {il csf : Rat} (hbox : GoodBox bMin bMax il csf) :
    2 ≤ (CellBlock.rebuild id bMin bMax il csf).dims.x ∧
    (CellBlock.rebuild id bMin bMax il csf).dims.x + 2 ≤ (CellBlock.rebuild id bMin bMax il csf).dims.x * (CellBlock.rebuild id bMin bMax il csf).dims.y := by
  have hd := hbox.dims_ge
  have hc : 1 ≤ cellsPerInteractionLength id csf := cpil_pos Rounding.exact hbox.csfPos
  generalize (CellBlock.rebuild id bMin bMax il csf).dims = d at hd ⊢
  generalize cellsPerInteractionLength id csf = w at hd hc
  have h1 : 3 ≤ d.x := by omega
  have h2 : 3 ≤ d.y := by omega
  exact ⟨by omega, by nlinarith⟩

private theorem sum_of {blk : CellBlock} {cl : V3 Rat} {il : Rat} {pos home : P → V3 Rat} {cells : List (List P)}
    (hs : SortedIn blk home cells) (hov : overlapOf il cl = ⟨1, 1, 1⟩) (hdx : 2 ≤ blk.dims.x) (hA : blk.dims.x + 2 ≤ blk.dims.x * blk.dims.y)
    {f : CellFunctorCfg P} (hsoa : f.soa = true) (hbi : f.bidirectional = true) (F : P → P → M) (dummy : P × M)
    (rows : List ((Nat × Nat) × C04Buffers P M)) (hrows : (rows.map Prod.fst).Perm (c04Rows blk.dims (overlapOf il cl).toNat).flatten) (m₀ : P → M)
    {cutoff : Rat} {bMin bMax : V3 Rat}
    (hmost : ∀ a b, timesReceived (f.run (openCells (lcCells blk cells)) (lcC08 blk.dims cl il)) a b ≤ 1 ∧
      (timesReceived (f.run (openCells (lcCells blk cells)) (lcC08 blk.dims cl il)) a b ≠ 0 → a ∈ cells.flatten ∧ b ∈ cells.flatten ∧ a ≠ b))
    (honce : ∀ a ∈ cells.flatten, ∀ b ∈ cells.flatten, a ≠ b → InBox (home a) bMin bMax → distSq (pos a) (pos b) ≤ cutoff * cutoff →
      timesReceived (f.run (openCells (lcCells blk cells)) (lcC08 blk.dims cl il)) a b = 1)
    (hF : ∀ a b, cutoff * cutoff < distSq (pos a) (pos b) → F a b = 0) :
    ∃ m : P → M,
      (∀ k, lcC04Combined dummy F f.newton3 (fun k => (cells.getD k []).length) (c04Setup blk.dims cl il) blk.dims
          (overlapOf il cl).toNat (fun k => (cells.getD k []).map fun p => (p, m₀ p)) rows k = (cells.getD k []).map fun p => (p, m p)) ∧
      ∀ a ∈ cells.flatten, InBox (home a) bMin bMax → m a = m₀ a + ((cells.flatten.filter fun b => b ≠ a).map (F a)).sum := by
  have hov' : (overlapOf il cl).toNat = ⟨1, 1, 1⟩ := by rw [hov]; rfl
  rw [hov'] at hrows ⊢
  refine ⟨fun p => m₀ p + accumulated F (f.run (openCells (lcCells blk cells)) (lcC08 blk.dims cl il)) p,
    fun k => combined_result_of hs hov hdx hA hsoa hbi F dummy rows hrows m₀ k, ?_⟩
  intro a ha hin
  show m₀ a + _ = m₀ a + _
  refine congrArg (fun x => m₀ a + x) ?_
  refine accumulated_eq hs.nodup (fun b => (hmost a b).1) (fun b hb => ⟨((hmost a b).2 hb).2.1, ((hmost a b).2 hb).2.2.symm⟩) ?_
  intro b hb hne hnz
  refine honce a ha b hb hne.symm hin ?_
  by_contra hd
  exact hnz (hF a b (not_le.1 hd))

/-- After the traversal the SoA buffer of every cell holds the particles of the cell in their order, and every particle that is not a halo
particle and was sorted into the box has got, in addition to what it had before (`m₀`), the sum of `F a b` over all other stored particles
`b`. `F a b`, what `a` receives on account of `b`, is zero beyond the cutoff. `rows`: the rows in the order in which they are processed, with
what the processing thread has in its combined buffers. -/
theorem C81_sum_of_contributions (bMin bMax : V3 Rat) (cutoff skin csf : Rat) (hcut : 0 ≤ cutoff) (hskin : 0 ≤ skin)
    (hbox : GoodBox bMin bMax (cutoff + skin) csf) (pos home : P → V3 Rat) (cells : List (List P)) (newton3 : Bool) (F : P → P → M)
    (dummy : P × M) (m₀ : P → M) (rows : List ((Nat × Nat) × C04Buffers P M)) :
    let blk := CellBlock.rebuild id bMin bMax (cutoff + skin) csf
    let ov := overlapOf (cutoff + skin) blk.cellLength
    ov = ⟨1, 1, 1⟩ →
    (rows.map Prod.fst).Perm (c04Rows blk.dims ov.toNat).flatten →
    SortedIn blk home cells →
    (∀ p ∈ cells.flatten, 4 * distSq (pos p) (home p) ≤ skin * skin) →
    (∀ a b, cutoff * cutoff < distSq (pos a) (pos b) → F a b = 0) →
    ∃ m : P → M,
      (∀ k, lcC04Combined dummy F newton3 (fun k => (cells.getD k []).length) (c04Setup blk.dims blk.cellLength (cutoff + skin)) blk.dims
          ov.toNat (fun k => (cells.getD k []).map fun p => (p, m₀ p)) rows k = (cells.getD k []).map fun p => (p, m p)) ∧
      ∀ a ∈ cells.flatten, InBox (home a) bMin bMax → m a = m₀ a + ((cells.flatten.filter fun b => b ≠ a).map (F a)).sum := by
  intro blk ov hov hrows hs hm hF
  let f : CellFunctorCfg P := ⟨fun _ => false, true, newton3, true, 0, cutoff + skin, ⟨1, 1, 1⟩, sortByProjection pos⟩
  have hf : FunctorFor .c08 pos (cutoff + skin) f := ⟨rfl, rfl, fun h => LCTraversal.noConfusion h, sortByProjection_sorted _⟩
  exact sum_of (f := f) hs hov (wide hbox).1 (wide hbox).2 rfl rfl F dummy rows hrows m₀
    (fun a b => open_at_most_once hbox .c08 a b trivial hf hs)
    (fun a ha b hb hab hin hd => open_exactly_once hcut hskin hbox .c08 trivial hf hs hm ha hb hab rfl hin hd) hF

end

/-! ## After every history -/

section
variable {M : Type} [AddCommMonoid M] {c : LHParams} {h : List LHAction} {s : LHState}

/-- C81. After every history, `computeInteractions` with `lc_c04_combined_SoA` (and the remainder traversal, which adds the contributions of
the particles in the buffers) gives every owned particle the sum over all other stored particles, if `F` is zero for dummies and from the cutoff
on. `result k` is the SoA buffer of cell `k` after the traversal. -/
theorem C81_accumulates_sum (H : ComputesAfter c h s) (newton3 : Bool) (F : Slot → Slot → M) (dummy : Slot × M) (m₀ : Slot → M)
    (rows : List ((Nat × Nat) × C04Buffers Slot M)) (hov : overlapOf c.il c.block.cellLength = ⟨1, 1, 1⟩)
    (hrows : (rows.map Prod.fst).Perm (c04Rows c.block.dims (overlapOf c.il c.block.cellLength).toNat).flatten)
    (hz : ∀ a b, (b.own = .dummy ∨ c.cutoff * c.cutoff ≤ distSq a.pos b.pos) → F a b = 0) :
    let cells := slotsOf 0 s.cells
    let result := lcC04Combined dummy F newton3 (fun k => (cells.getD k []).length) (c04Setup c.block.dims c.block.cellLength c.il) c.block.dims
      (overlapOf c.il c.block.cellLength).toNat (fun k => (cells.getD k []).map fun p => (p, m₀ p)) rows
    ∃ m : Slot → M, (∀ k, result k = (cells.getD k []).map fun p => (p, m p)) ∧
      (∀ a, a ∉ cells.flatten → m a = m₀ a) ∧
      ∀ a ∈ s.slots, a.own = .owned →
        m a + accumulated F (remainder2B Slot.pos Slot.own newton3 c.cutoff cells.flatten (slotsOf 1 s.bufs) (slotsOf 2 s.haloBufs)) a =
          m₀ a + ((s.slots.filter fun b => b ≠ a).map (F a)).sum := by
  intro cells result
  have R := H.ready
  have hc := R.params
  have hov' : (overlapOf c.il c.block.cellLength).toNat = ⟨1, 1, 1⟩ := by rw [hov]; rfl
  let f : CellFunctorCfg Slot := ⟨fun x => decide (x.own = .halo), true, newton3, true, 0, c.il, ⟨1, 1, 1⟩, sortByProjection Slot.pos⟩
  have hf : FunctorFor .c08 Slot.pos c.il f := ⟨rfl, rfl, fun h => LCTraversal.noConfusion h, sortByProjection_sorted _⟩
  have hmost := fun a b => open_at_most_once hc.box .c08 (cells := cells) a b trivial hf R.sorted
  refine ⟨fun p => m₀ p + accumulated F (f.run (openCells (lcCells c.block cells)) (lcC08 c.block.dims c.block.cellLength c.il)) p,
    fun k => ?_, ?_, ?_⟩
  · show lcC04Combined _ _ _ _ _ _ (overlapOf c.il c.block.cellLength).toNat _ _ _ = _
    rw [hov'] at hrows ⊢
    exact combined_result_of R.sorted hov (wide hc.box).1 (wide hc.box).2 (f := f) rfl rfl F dummy rows hrows m₀ k
  · intro a ha
    simp only
    rw [accumulated_zero F, add_zero]
    rintro ⟨x, y⟩ ht rfl
    refine ha ((hmost x y).2 ?_).1
    exact (List.count_pos_iff.2 ht).ne'
  · have hcomp : CompleteCalls Slot.pos Slot.own c.cutoff s.slots (f.run (openCells (lcCells c.block cells))
        (LCTraversal.c08.ops c.block.dims c.block.cellLength c.il) ++
        remainder2B Slot.pos Slot.own newton3 c.cutoff cells.flatten (slotsOf 1 s.bufs) (slotsOf 2 s.haloBufs)) := by
      refine CompleteCalls.with_remainder (cont := cells.flatten) ⟨?_, fun a b => (hmost a b).1, fun a b => (hmost a b).2⟩
        (cutoff_nonneg hc) (slots_input s R.bl) (fun x hx => R.hown _ (slot_particle_flatten hx)) _
      intro a ha b hb hab hao hbo hd
      have hk := open_exactly_once (cutoff_nonneg hc) (lhSkin_nonneg hc) (csf := c.csf) (bMin := c.bMin) (bMax := c.bMax)
        (by rw [cut_add]; exact hc.box) .c08 (pos := Slot.pos) (home := R.home) (f := f) (cells := cells) (a := a) (b := b)
      simp only [cut_add] at hk
      refine hk trivial hf R.sorted ?_ ha hb hab ?_ ?_ (le_of_lt hd)
      · intro p hp
        obtain ⟨k, hk⟩ := mem_flatten_getD'.1 hp
        exact (R.home_spec hk).2
      · show decide (a.own = .halo) = false
        rw [show a.own = .owned from hao]; rfl
      · obtain ⟨k, hk⟩ := mem_flatten_getD'.1 ha
        have h1 := R.ownedIn k _ (slot_particle hk) hao
        rw [← (R.home_spec hk).1, halo_iff_outside hc, Bool.not_eq_false', inBoxB_iff, decide_eq_true_eq] at h1
        exact h1
    intro a ha hao
    have := hcomp.accumulated (slots_input s R.bl).nodup F hz a ha hao
    rw [accumulated_append] at this
    simp only
    rw [add_assoc]
    exact congrArg _ this

end

/-! ## Threads -/

/-- Cell `i` is one of the cells of the row `(y, z)` of base cells, or of the three rows above, behind, and above and behind. -/
def RowCell (dims : V3 Nat) (row : Nat × Nat) (i : Nat) : Prop :=
  ∃ x y z, x < dims.x ∧ (y = row.1 ∨ y = row.1 + 1) ∧ (z = row.2 ∨ z = row.2 + 1) ∧ i = threeToOneD ⟨x, y, z⟩ dims

/-- A row writes only its cells, and what it does depends only on its cells and on the buffers of its thread. -/
theorem C81_row_uses_its_cells {P M : Type} [DecidableEq P] [AddCommMonoid M] (dummy : P × M) (F : P → P → M) (newton3 : Bool)
    (size : Nat → Nat) (dims : V3 Nat) (cl : V3 Rat) (il : Rat) (hov : overlapOf il cl = ⟨1, 1, 1⟩) (hdx : 2 ≤ dims.x)
    (hA : dims.x + 2 ≤ dims.x * dims.y) (row : Nat × Nat) :
    let run := fun st : C04State P M => C04State.row dummy F newton3 size (c04Setup dims cl il) dims (overlapOf il cl).toNat st row
    (∀ st i, ¬ RowCell dims row i → (run st).mem (.cell i) = st.mem (.cell i)) ∧
    (∀ st st', SameOn (RowCell dims row) st st' → SameOn (RowCell dims row) (run st) (run st')) := by
  intro run
  have key : OnlyOn (RowCell dims row) run := by
    refine OnlyOn.foldl _ fun x hx => onlyOn_baseCell ?_ dummy F newton3 size
    have hx : x + 1 < dims.x := by
      have := (mem_forUp (by omega)).1 hx
      simp only [hov, V3.toNat, V3.sub, Int.toNat_one] at this
      omega
    rw [c04Setup_one hov hdx hA]
    have hcell : ∀ a b c, a ≤ 1 → b ≤ 1 → c ≤ 1 →
        RowCell dims row (threeToOneD ⟨x, row.1, row.2⟩ dims + (a + b * dims.x + c * (dims.x * dims.y))) := by
      intro a b c ha hb hc
      refine ⟨x + a, row.1 + b, row.2 + c, by omega, by omega, by omega, ?_⟩
      simp only [threeToOneD]
      ring
    constructor
    · intro l hl o ho
      simp only [c04One, List.mem_cons, List.not_mem_nil, or_false] at hl
      rcases hl with rfl | rfl <;> simp only [List.mem_cons, List.not_mem_nil, or_false] at ho <;> rcases ho with rfl | rfl
      · simpa using hcell 0 0 0 (by omega) (by omega) (by omega)
      · simpa using hcell 0 1 0 (by omega) (by omega) (by omega)
      · simpa using hcell 1 0 0 (by omega) (by omega) (by omega)
      · have := hcell 1 1 0 (by omega) (by omega) (by omega)
        rwa [show 1 + 1 * dims.x + 0 * (dims.x * dims.y) = dims.x + 1 by ring] at this
    · intro l hl e he
      simp only [c04One, List.mem_cons, List.not_mem_nil, or_false] at hl
      rcases hl with rfl | rfl <;> simp only [List.mem_cons, List.not_mem_nil, or_false] at he
      · rcases he with rfl | rfl | rfl | rfl | rfl | rfl
        · simpa using hcell 0 0 0 (by omega) (by omega) (by omega)
        · simpa using hcell 1 0 0 (by omega) (by omega) (by omega)
        · simpa using hcell 0 0 1 (by omega) (by omega) (by omega)
        · have := hcell 1 0 1 (by omega) (by omega) (by omega)
          rwa [show 1 + 0 * dims.x + 1 * (dims.x * dims.y) = dims.x * dims.y + 1 by ring] at this
        · have := hcell 0 1 1 (by omega) (by omega) (by omega)
          rwa [show 0 + 1 * dims.x + 1 * (dims.x * dims.y) = dims.x * dims.y + dims.x by ring] at this
        · have := hcell 1 1 1 (by omega) (by omega) (by omega)
          rwa [show 1 + 1 * dims.x + 1 * (dims.x * dims.y) = dims.x * dims.y + dims.x + 1 by ring] at this
      · rcases he with rfl | rfl | rfl
        · simpa using hcell 0 0 0 (by omega) (by omega) (by omega)
        · simpa using hcell 0 0 1 (by omega) (by omega) (by omega)
        · have := hcell 0 1 1 (by omega) (by omega) (by omega)
          rwa [show 0 + 1 * dims.x + 1 * (dims.x * dims.y) = dims.x * dims.y + dims.x by ring] at this
  exact ⟨key.writes, key.reads⟩

/-- Two rows of one colour, i.e. rows that may run at the same time, have no cell in common. -/
theorem C81_rows_disjoint (dims : V3 Nat) (colour : List (Nat × Nat)) (hc : colour ∈ c04Rows dims ⟨1, 1, 1⟩) (r r' : Nat × Nat)
    (hr : r ∈ colour) (hr' : r' ∈ colour) (hne : r ≠ r') (i : Nat) : ¬ (RowCell dims r i ∧ RowCell dims r' i) := by
  unfold c04Rows at hc
  obtain ⟨col, hcol, rfl⟩ := List.mem_map.1 hc
  simp only [List.mem_flatMap, List.mem_map] at hr hr'
  obtain ⟨z, hz, y, hy, rfl⟩ := hr
  obtain ⟨z', hz', y', hy', rfl⟩ := hr'
  rw [mem_forUp (by omega)] at hz hy hz' hy'
  simp only [V3.sub] at hz hy hz' hy'
  rintro ⟨⟨x1, y1, z1, hx1, hy1, hz1, rfl⟩, x2, y2, z2, hx2, hy2, hz2, e⟩
  have hg1 : InGrid ⟨x1, y1, z1⟩ dims := ⟨hx1, by simp only at hy1 ⊢; omega, by simp only at hz1 ⊢; omega⟩
  have hg2 : InGrid ⟨x2, y2, z2⟩ dims := ⟨hx2, by simp only at hy2 ⊢; omega, by simp only at hz2 ⊢; omega⟩
  have := flat_inj hg1 hg2 e
  obtain ⟨-, rfl, rfl⟩ := V3.mk.inj this
  apply hne
  simp only at hy1 hz1 hy2 hz2
  have h1 : y = y' := by omega
  have h2 : z = z' := by omega
  rw [h1, h2]

/-! Non-vacuity: the box `[0,1)³` with interaction length 1, i.e. 3³ cells and the 4 rows `(0, 0)`, `(1, 0)`, `(0, 1)`, `(1, 1)`, one per
colour, with a thread that has garbage in its buffers; and a colour with several rows. -/

private theorem exSize : (CellBlock.rebuild id ⟨0, 0, 0⟩ ⟨1, 1, 1⟩ (3/4 + 1/4) 1).dims = ⟨3, 3, 3⟩ ∧
    overlapOf (3/4 + 1/4) (CellBlock.rebuild id ⟨0, 0, 0⟩ ⟨1, 1, 1⟩ (3/4 + 1/4) 1).cellLength = ⟨1, 1, 1⟩ := by decide +kernel

example : c04Rows ⟨3, 3, 3⟩ ⟨1, 1, 1⟩ = [[(0, 0)], [(1, 0)], [(0, 1)], [(1, 1)]] ∧
    c04Rows ⟨3, 6, 4⟩ ⟨1, 1, 1⟩ = [[(0, 0), (2, 0), (4, 0), (0, 2), (2, 2), (4, 2)], [(1, 0), (3, 0), (1, 2), (3, 2)],
      [(0, 1), (2, 1), (4, 1)], [(1, 1), (3, 1)]] := by
  have hr : List.range 4 = [0, 1, 2, 3] := by decide
  constructor <;> simp only [c04Rows, hr, Nat.reduceAdd, Nat.reduceMul, List.map_cons, List.map_nil, oneToThreeD, V3.sub, Nat.reduceMod,
    Nat.reduceDiv, Nat.reduceSub] <;> simp [forUp]

private theorem exRows : c04Rows ⟨3, 3, 3⟩ ⟨1, 1, 1⟩ = [[(0, 0)], [(1, 0)], [(0, 1)], [(1, 1)]] := by
  have hr : List.range 4 = [0, 1, 2, 3] := by decide
  simp only [c04Rows, hr, Nat.reduceAdd, Nat.reduceMul, List.map_cons, List.map_nil, oneToThreeD, V3.sub, Nat.reduceMod,
    Nat.reduceDiv, Nat.reduceSub]
  simp [forUp]

private def exBuffers : C04Buffers Particle Nat := ⟨fun _ => [(exOwned, 5)], fun _ => [7], 9⟩

private def exRowOrder : List ((Nat × Nat) × C04Buffers Particle Nat) :=
  [((1, 1), exBuffers), ((0, 0), exBuffers), ((0, 1), exBuffers), ((1, 0), exBuffers)]

private def exClose (a b : Particle) : Nat := if distSq a.pos b.pos ≤ 3/4 * (3/4) then 1 else 0

example : ∃ m : Particle → Nat,
    (∀ k, lcC04Combined (exDummy, 0) exClose true (fun k => (exCells.getD k []).length)
      (c04Setup (CellBlock.rebuild id ⟨0, 0, 0⟩ ⟨1, 1, 1⟩ (3/4 + 1/4) 1).dims
        (CellBlock.rebuild id ⟨0, 0, 0⟩ ⟨1, 1, 1⟩ (3/4 + 1/4) 1).cellLength (3/4 + 1/4))
      (CellBlock.rebuild id ⟨0, 0, 0⟩ ⟨1, 1, 1⟩ (3/4 + 1/4) 1).dims
      (overlapOf (3/4 + 1/4) (CellBlock.rebuild id ⟨0, 0, 0⟩ ⟨1, 1, 1⟩ (3/4 + 1/4) 1).cellLength).toNat
      (fun k => (exCells.getD k []).map fun p => (p, 0)) exRowOrder k =
      (exCells.getD k []).map fun p => (p, m p)) ∧ m exOwned = 2 := by
  have e : (3/4 + 1/4 : Rat) = 1 := by norm_num
  obtain ⟨m, h1, h2⟩ := C81_sum_of_contributions ⟨0, 0, 0⟩ ⟨1, 1, 1⟩ (3/4) (1/4) 1 (by norm_num) (by norm_num) (by rw [e]; exact exGood)
    Particle.pos Particle.pos exCells true exClose (exDummy, 0) (fun _ => 0) exRowOrder exSize.2
    (by rw [exSize.1, exSize.2]; show List.Perm _ (c04Rows ⟨3, 3, 3⟩ ⟨1, 1, 1⟩).flatten; rw [exRows]; decide) exSortedIn
    (by intro p _; simp [distSq]) (fun a b hab => if_neg (not_le.2 hab))
  refine ⟨m, h1, ?_⟩
  rw [h2 exOwned (by decide +kernel) (by decide +kernel)]
  rw [show exCells.flatten = [exHalo, exOwned, exDummy, exOwned2] by decide +kernel,
    show [exHalo, exOwned, exDummy, exOwned2].filter (fun b => b ≠ exOwned) = [exHalo, exDummy, exOwned2] by decide +kernel]
  show 0 + (exClose exOwned exHalo + (exClose exOwned exDummy + (exClose exOwned exOwned2 + 0))) = 2
  rw [show exClose exOwned exHalo = 0 by decide +kernel, show exClose exOwned exDummy = 1 by decide +kernel,
    show exClose exOwned exOwned2 = 1 by decide +kernel]

end Verif
