import Verif.Lemmas.WithRemainder3
import Verif.Lemmas.LCWhole
import Verif.Lemmas.DirectSum
/-! The three-body traversals `lc_c01` and `ds_sequential`. -/
namespace Verif
open Spec

/-- The two cells of the entry that is responsible for a particle in cell `ca` and two others in `cb`, `cc`. -/
def c01Want (ca cb cc : Int) : Int × Int :=
  if cb = ca ∧ cc = ca then (ca, ca)
  else if cb = ca ∨ cb = cc then (min ca cc, max ca cc)
  else if cc = ca then (min ca cb, max ca cb)
  else (min cb cc, max cb cc)

/-- Which call has which effect. -/
theorem c01_hits {dims : V3 Nat} {cl : V3 Rat} {base : Int} {e : (Int × Int × Int) × (Int × Int × Int)}
    (h : c01Flat dims e.1 < c01Flat dims e.2 ∨ (c01Flat dims e.1 = 0 ∧ c01Flat dims e.2 = 0)) {ca cb cc : Int} :
    hits3 false ca cb cc (c01TripleOp dims cl base e) = true ↔
      ca = base ∧ base + c01Flat dims e.1 = (c01Want ca cb cc).1 ∧ base + c01Flat dims e.2 = (c01Want ca cb cc).2 := by
  unfold c01TripleOp
  generalize c01Flat dims e.1 = f1 at *
  generalize c01Flat dims e.2 = f2 at *
  unfold c01Want
  dsimp only
  split_ifs <;> simp only [hits3, decide_eq_true_eq, Bool.false_eq_true, false_or, false_and, or_false] <;> omega

theorem c01_valid {dims : V3 Nat} {cl : V3 Rat} {base : Int} {e : (Int × Int × Int) × (Int × Int × Int)}
    (h0 : 0 ≤ base) (h1 : 0 ≤ base + c01Flat dims e.1) (h2 : 0 ≤ base + c01Flat dims e.2) : ValidOp3 (c01TripleOp dims cl base e) := by
  unfold c01TripleOp
  generalize c01Flat dims e.1 = f1 at *
  generalize c01Flat dims e.2 = f2 at *
  dsimp only
  split_ifs with g1 g2 g3 g4
  · exact ⟨by simp [touched3]; omega, by simp [touched3]⟩
  · exact ⟨by simp [touched3]; omega, by simp [touched3]; omega⟩
  · exact ⟨by simp [touched3]; omega, by simp [touched3]; omega⟩
  · exact ⟨by simp [touched3]; omega, by simp [touched3]; omega⟩
  all_goals exact ⟨by simp [touched3]; omega, by simp [touched3]; omega⟩

theorem mem_c01Cube {ov : V3 Int} {o : Int × Int × Int} : o ∈ c01Cube ov ↔
    (-ov.x ≤ o.1 ∧ o.1 ≤ ov.x) ∧ (-ov.y ≤ o.2.1 ∧ o.2.1 ≤ ov.y) ∧ (-ov.z ≤ o.2.2 ∧ o.2.2 ≤ ov.z) := by
  obtain ⟨x, y, z⟩ := o
  simp only [c01Cube, List.mem_flatMap, List.mem_map, mem_forInt]
  constructor
  · rintro ⟨x', hx, y', hy, z', hz, he⟩
    simp only [Prod.mk.injEq] at he
    obtain ⟨rfl, rfl, rfl⟩ := he
    exact ⟨hx, hy, hz⟩
  · rintro ⟨hx, hy, hz⟩
    exact ⟨x, hx, y, hy, z, hz, rfl⟩

theorem nodup_c01Cube (ov : V3 Int) : (c01Cube ov).Nodup := by
  unfold c01Cube
  refine nodup_flatMap_key (fun t => t.1) (nodup_forInt _ _) (fun x _ => ?_) ?_
  · refine nodup_flatMap_key (fun t => t.2.1) (nodup_forInt _ _) (fun y _ => ?_) ?_
    · exact List.Nodup.map (fun a b h => by simpa using h) (nodup_forInt _ _)
    · intro y _ t ht
      obtain ⟨z, -, rfl⟩ := List.mem_map.1 ht
      rfl
  · intro x _ t ht
    obtain ⟨y, -, ht⟩ := List.mem_flatMap.1 ht
    obtain ⟨z, -, rfl⟩ := List.mem_map.1 ht
    rfl

theorem mem_c01TriwiseOffsets {dims : V3 Nat} {cl : V3 Rat} {il : Rat} {e : (Int × Int × Int) × (Int × Int × Int)} :
    e ∈ c01TriwiseOffsets dims cl il ↔ e = ((0, 0, 0), (0, 0, 0)) ∨
      (e.1 ∈ c01Cube (overlapOf il cl) ∧ e.2 ∈ c01Cube (overlapOf il cl) ∧ c01CellDistSq cl (0, 0, 0) e.1 ≤ il * il ∧
        c01CellDistSq cl e.1 e.2 ≤ il * il ∧ c01CellDistSq cl (0, 0, 0) e.2 ≤ il * il ∧ c01Flat dims e.1 < c01Flat dims e.2) := by
  obtain ⟨o1, o2⟩ := e
  unfold c01TriwiseOffsets
  simp only [List.mem_cons, List.mem_flatMap, List.mem_map, List.mem_filter, decide_eq_true_eq]
  constructor
  · rintro (h | ⟨a, ⟨h1, h2⟩, b, ⟨h3, h4, h5, h6⟩, h7⟩)
    · exact .inl h
    · cases h7; exact .inr ⟨h1, h3, h2, h4, h5, h6⟩
  · rintro (h | ⟨h1, h3, h2, h4, h5, h6⟩)
    · exact .inl h
    · exact .inr ⟨o1, ⟨h1, h2⟩, o2, ⟨h3, h4, h5, h6⟩, rfl⟩

theorem nodup_c01TriwiseOffsets (dims : V3 Nat) (cl : V3 Rat) (il : Rat) : (c01TriwiseOffsets dims cl il).Nodup := by
  unfold c01TriwiseOffsets
  refine List.nodup_cons.2 ⟨?_, ?_⟩
  · intro h
    obtain ⟨a, -, h⟩ := List.mem_flatMap.1 h
    obtain ⟨b, h1, h2⟩ := List.mem_map.1 h
    cases h2
    have := (List.mem_filter.1 h1).2
    simp only [decide_eq_true_eq] at this
    exact lt_irrefl _ this.2.2
  · refine nodup_flatMap_key (fun t => t.1) ((nodup_c01Cube _).filter _) (fun o _ => ?_) ?_
    · exact List.Nodup.map (fun a b h => by simpa using h) ((nodup_c01Cube _).filter _)
    · intro o _ t ht
      obtain ⟨b, -, rfl⟩ := List.mem_map.1 ht
      rfl

/-- The base cells paired with the entries of the table. -/
def c01Q3 (dims : V3 Nat) (cl : V3 Rat) (il : Rat) : List (V3 Nat × ((Int × Int × Int) × (Int × Int × Int))) :=
  basePairs (c01Bases dims (overlapOf il cl).toNat).flatten (c01TriwiseOffsets dims cl il)

theorem lcC01Triwise_eq (dims : V3 Nat) (cl : V3 Rat) (il : Rat) :
    (lcC01Triwise dims cl il).flatten = (c01Q3 dims cl il).map fun q => c01TripleOp dims cl (threeToOneD q.1 dims) q.2 := by
  unfold lcC01Triwise c01Q3 basePairs
  rw [List.map_flatMap, ← List.flatMap_def]
  apply List.flatMap_congr
  intro b _
  rw [List.map_map]
  rfl

/-- What an element of `c01Q3` is like. -/
structure C01Item (dims : V3 Nat) (q : V3 Nat × ((Int × Int × Int) × (Int × Int × Int))) : Prop where
  base : InGrid q.1 dims
  grid1 : InGrid (shift q.1 q.2.1) dims
  grid2 : InGrid (shift q.1 q.2.2) dims
  flat1 : (threeToOneD q.1 dims : Int) + c01Flat dims q.2.1 = threeToOneD (shift q.1 q.2.1) dims
  flat2 : (threeToOneD q.1 dims : Int) + c01Flat dims q.2.2 = threeToOneD (shift q.1 q.2.2) dims
  nonneg1 : 0 ≤ q.1.x + q.2.1.1 ∧ 0 ≤ q.1.y + q.2.1.2.1 ∧ 0 ≤ q.1.z + q.2.1.2.2
  nonneg2 : 0 ≤ q.1.x + q.2.2.1 ∧ 0 ≤ q.1.y + q.2.2.2.1 ∧ 0 ≤ q.1.z + q.2.2.2.2
  order : c01Flat dims q.2.1 < c01Flat dims q.2.2 ∨ (c01Flat dims q.2.1 = 0 ∧ c01Flat dims q.2.2 = 0)

theorem c01Flat_zero (dims : V3 Nat) : c01Flat dims (0, 0, 0) = 0 := by simp [c01Flat, threeToOneDInt]

theorem c01_item {dims : V3 Nat} {cl : V3 Rat} {il : Rat} (h : C18Dims dims cl il) {q : V3 Nat × ((Int × Int × Int) × (Int × Int × Int))}
    (hq : q ∈ c01Q3 dims cl il) : C01Item dims q := by
  obtain ⟨b, ⟨x1, y1, z1⟩, ⟨x2, y2, z2⟩⟩ := q
  obtain ⟨o1, o2, o3⟩ := h.pos.ov
  have hdx := h.x
  have hdy := h.y
  have hdz := h.z
  rw [c01Q3, mem_basePairs, c01Bases, mem_colorTraversal (by simp) (by simp) (by simp)] at hq
  obtain ⟨hb, he⟩ := hq
  simp only [InRange, V3.sub, V3.toNat] at hb
  have cube : ((-(overlapOf il cl).x ≤ x1 ∧ x1 ≤ (overlapOf il cl).x) ∧ (-(overlapOf il cl).y ≤ y1 ∧ y1 ≤ (overlapOf il cl).y) ∧
      (-(overlapOf il cl).z ≤ z1 ∧ z1 ≤ (overlapOf il cl).z)) ∧ ((-(overlapOf il cl).x ≤ x2 ∧ x2 ≤ (overlapOf il cl).x) ∧
      (-(overlapOf il cl).y ≤ y2 ∧ y2 ≤ (overlapOf il cl).y) ∧ (-(overlapOf il cl).z ≤ z2 ∧ z2 ≤ (overlapOf il cl).z)) := by
    rw [mem_c01TriwiseOffsets] at he
    rcases he with he | ⟨h1, h2, -⟩
    · cases he; omega
    · rw [mem_c01Cube] at h1 h2; exact ⟨h1, h2⟩
  obtain ⟨c1, c2⟩ := cube
  refine ⟨?_, ?_, ?_, ?_, ?_, ?_, ?_, ?_⟩
  · unfold InGrid; simp only; omega
  · refine ⟨?_, ?_, ?_⟩ <;> simp only [shift] <;> omega
  · refine ⟨?_, ?_, ?_⟩ <;> simp only [shift] <;> omega
  · exact flat_shift (by simp only; omega) (by simp only; omega) (by simp only; omega)
  · exact flat_shift (by simp only; omega) (by simp only; omega) (by simp only; omega)
  · simp only; omega
  · simp only; omega
  · rw [mem_c01TriwiseOffsets] at he
    rcases he with he | ⟨-, -, -, -, -, h6⟩
    · cases he; exact .inr ⟨c01Flat_zero _, c01Flat_zero _⟩
    · exact .inl h6

theorem C01Item.hits {dims : V3 Nat} {cl : V3 Rat} {q : V3 Nat × ((Int × Int × Int) × (Int × Int × Int))} (H : C01Item dims q) {ca cb cc : Int} :
    hits3 false ca cb cc (c01TripleOp dims cl (threeToOneD q.1 dims) q.2) = true ↔ ca = threeToOneD q.1 dims ∧
      (threeToOneD (shift q.1 q.2.1) dims : Int) = (c01Want ca cb cc).1 ∧ (threeToOneD (shift q.1 q.2.2) dims : Int) = (c01Want ca cb cc).2 := by
  rw [c01_hits H.order, H.flat1, H.flat2]

theorem C01Item.unique {dims : V3 Nat} {q r : V3 Nat × ((Int × Int × Int) × (Int × Int × Int))} (H : C01Item dims q) (H' : C01Item dims r)
    (h0 : (threeToOneD q.1 dims : Int) = threeToOneD r.1 dims)
    (h1 : (threeToOneD (shift q.1 q.2.1) dims : Int) = threeToOneD (shift r.1 r.2.1) dims)
    (h2 : (threeToOneD (shift q.1 q.2.2) dims : Int) = threeToOneD (shift r.1 r.2.2) dims) : q = r := by
  obtain ⟨b, s1, s2⟩ := q
  obtain ⟨b', t1, t2⟩ := r
  have e0 : b = b' := (flat_iff H.base H'.base).1 h0
  subst e0
  have e1 := (flat_iff H.grid1 H'.grid1).1 h1
  have e2 := (flat_iff H.grid2 H'.grid2).1 h2
  have k1 := shift_inj H.nonneg1 H'.nonneg1 e1
  have k2 := shift_inj H.nonneg2 H'.nonneg2 e2
  simp only at k1 k2
  rw [k1, k2]

/-- No two calls are responsible for the same receiver and partners. -/
theorem c01_triwise_most {dims : V3 Nat} {cl : V3 Rat} {il : Rat} (h : C18Dims dims cl il) (ca cb cc : Int) :
    (lcC01Triwise dims cl il).flatten.countP (hits3 false ca cb cc) ≤ 1 := by
  rw [lcC01Triwise_eq, List.countP_map]
  refine countP_le_one_of_unique (nodup_basePairs (nodup_colorTraversal _ _ _) (nodup_c01TriwiseOffsets _ _ _)) ?_
  intro r hr q hq h1 h2
  have ir := c01_item h hr
  have iq := c01_item h hq
  have h1 := ir.hits.1 h1
  have h2 := iq.hits.1 h2
  exact ir.unique iq (h1.1.symm.trans h2.1) (h1.2.1.trans h2.2.1.symm) (h1.2.2.trans h2.2.2.symm)

theorem c01Want_cases {α : Type} (fl : α → Int) (A B C : α) : ∃ U V, U ∈ [A, B, C] ∧ V ∈ [A, B, C] ∧
    fl U = (c01Want (fl A) (fl B) (fl C)).1 ∧ fl V = (c01Want (fl A) (fl B) (fl C)).2 ∧
    (fl U < fl V ∨ (fl U = fl A ∧ fl V = fl A ∧ U = A ∧ V = A)) := by
  unfold c01Want
  split_ifs with h1 h2 h3
  · exact ⟨A, A, by simp, by simp, rfl, rfl, .inr ⟨rfl, rfl, rfl, rfl⟩⟩
  · rcases Int.lt_trichotomy (fl A) (fl C) with h | h | h
    · exact ⟨A, C, by simp, by simp, by simp only; omega, by simp only; omega, .inl h⟩
    · omega
    · exact ⟨C, A, by simp, by simp, by simp only; omega, by simp only; omega, .inl h⟩
  · rcases Int.lt_trichotomy (fl A) (fl B) with h | h | h
    · exact ⟨A, B, by simp, by simp, by simp only; omega, by simp only; omega, .inl h⟩
    · omega
    · exact ⟨B, A, by simp, by simp, by simp only; omega, by simp only; omega, .inl h⟩
  · rcases Int.lt_trichotomy (fl B) (fl C) with h | h | h
    · exact ⟨B, C, by simp, by simp, by simp only; omega, by simp only; omega, .inl h⟩
    · omega
    · exact ⟨C, B, by simp, by simp, by simp only; omega, by simp only; omega, .inl h⟩

theorem c01CellDistSq_eq {cl : V3 Rat} {A U V : V3 Nat} : c01CellDistSq cl ((U.x : Int) - A.x, (U.y : Int) - A.y, (U.z : Int) - A.z)
    ((V.x : Int) - A.x, (V.y : Int) - A.y, (V.z : Int) - A.z) = cellGapSq cl V U := by
  unfold c01CellDistSq
  simp only
  exact gap_eq (by omega) (by omega) (by omega)

theorem c01CellDistSq_zero {cl : V3 Rat} {A U : V3 Nat} : c01CellDistSq cl (0, 0, 0) ((U.x : Int) - A.x, (U.y : Int) - A.y, (U.z : Int) - A.z) =
    cellGapSq cl U A := by
  have := c01CellDistSq_eq (cl := cl) (A := A) (U := A) (V := U)
  simpa using this

theorem cellGapSq_self (cl : V3 Rat) (a : V3 Nat) : cellGapSq cl a a = 0 := by simp [cellGapSq, axisGap, axisDist]

/-- Cells that are close to each other are treated together. -/
theorem c01_triwise_once {dims : V3 Nat} {cl : V3 Rat} {il : Rat} (h : C18Dims dims cl il) {hw : Nat}
    (hwx : (overlapOf il cl).x ≤ hw) (hwy : (overlapOf il cl).y ≤ hw) (hwz : (overlapOf il cl).z ≤ hw)
    {A B C : V3 Nat} (hh : ¬ IsHalo hw dims A)
    (ovB : WithinOverlap (overlapOf il cl).toNat A B) (ovC : WithinOverlap (overlapOf il cl).toNat A C)
    (gAB : cellGapSq cl A B ≤ il * il) (gAC : cellGapSq cl A C ≤ il * il) (gBC : cellGapSq cl B C ≤ il * il) :
    (lcC01Triwise dims cl il).flatten.countP (hits3 false (threeToOneD A dims) (threeToOneD B dims) (threeToOneD C dims)) = 1 := by
  obtain ⟨o1, o2, o3⟩ := h.pos.ov
  have hil2 : 0 ≤ il * il := mul_self_nonneg il
  obtain ⟨U, V, hU, hV, eU, eV, hlt⟩ := c01Want_cases (fun X : V3 Nat => (threeToOneD X dims : Int)) A B C
  have cube : ∀ X ∈ [A, B, C], ((X.x : Int) - A.x, (X.y : Int) - A.y, (X.z : Int) - A.z) ∈ c01Cube (overlapOf il cl) := by
    intro X hX
    rw [mem_c01Cube]
    simp only [List.mem_cons, List.not_mem_nil, or_false] at hX
    unfold WithinOverlap axisDist V3.toNat at ovB ovC
    simp only at ovB ovC ⊢
    rcases hX with rfl | rfl | rfl
    · omega
    · obtain ⟨v1, v2, v3⟩ := ovB
      refine ⟨?_, ?_, ?_⟩
      · split at v1 <;> omega
      · split at v2 <;> omega
      · split at v3 <;> omega
    · obtain ⟨v1, v2, v3⟩ := ovC
      refine ⟨?_, ?_, ?_⟩
      · split at v1 <;> omega
      · split at v2 <;> omega
      · split at v3 <;> omega
  have gap : ∀ X ∈ [A, B, C], ∀ Y ∈ [A, B, C], cellGapSq cl X Y ≤ il * il := by
    intro X hX Y hY
    simp only [List.mem_cons, List.not_mem_nil, or_false] at hX hY
    rcases hX with rfl | rfl | rfl <;> rcases hY with rfl | rfl | rfl <;>
      first | (rw [cellGapSq_self]; exact hil2) | assumption | (rw [cellGapSq_comm]; assumption)
  have shiftX : ∀ X : V3 Nat, shift A ((X.x : Int) - A.x, (X.y : Int) - A.y, (X.z : Int) - A.z) = X := by
    rintro ⟨x, y, z⟩
    simp only [shift, V3.mk.injEq]; omega
  have flatX : ∀ X : V3 Nat, (threeToOneD A dims : Int) + c01Flat dims ((X.x : Int) - A.x, (X.y : Int) - A.y, (X.z : Int) - A.z) = threeToOneD X dims := by
    intro X
    have := flat_shift (dims := dims) (b := A) (x := (X.x : Int) - A.x) (y := (X.y : Int) - A.y) (z := (X.z : Int) - A.z) (by omega) (by omega) (by omega)
    rw [shiftX] at this
    exact this
  have hmem : (A, (((U.x : Int) - A.x, (U.y : Int) - A.y, (U.z : Int) - A.z), ((V.x : Int) - A.x, (V.y : Int) - A.y, (V.z : Int) - A.z))) ∈
      c01Q3 dims cl il := by
    rw [c01Q3, mem_basePairs, c01Bases, mem_colorTraversal (by simp) (by simp) (by simp)]
    have hdx := h.x
    have hdy := h.y
    have hdz := h.z
    refine ⟨?_, ?_⟩
    · unfold IsHalo at hh
      simp only [InRange, V3.sub, V3.toNat]
      omega
    · rw [mem_c01TriwiseOffsets]
      rcases hlt with hlt | ⟨-, -, rfl, rfl⟩
      · right
        refine ⟨cube U hU, cube V hV, ?_, ?_, ?_, ?_⟩
        · rw [c01CellDistSq_zero]; exact gap U hU A (by simp)
        · rw [c01CellDistSq_eq]; exact gap V hV U hU
        · rw [c01CellDistSq_zero]; exact gap V hV A (by simp)
        · have h1 := flatX U
          have h2 := flatX V
          simp only
          omega
      · left; simp
  have item := c01_item h hmem
  rw [lcC01Triwise_eq, List.countP_map]
  refine countP_eq_one_of_unique (nodup_basePairs (nodup_colorTraversal _ _ _) (nodup_c01TriwiseOffsets _ _ _)) hmem ?_ ?_
  · refine item.hits.2 ⟨rfl, ?_, ?_⟩
    · simp only [shiftX]; exact eU
    · simp only [shiftX]; exact eV
  · intro r hr hp
    have ir := c01_item h hr
    have h1 := ir.hits.1 hp
    refine ir.unique item h1.1.symm ?_ ?_
    · rw [h1.2.1]; simp only [shiftX]; exact eU.symm
    · rw [h1.2.2]; simp only [shiftX]; exact eV.symm

section
variable {P : Type} [DecidableEq P] {f : CellFunctorCfg P} {pos home : P → V3 Rat} {bMin bMax : V3 Rat} {cutoff skin il csf : Rat}
  {cells : List (List P)} {own : P → Ownership}

/-- The sorting directions fit the cells. -/
theorem c01_triwise_notBehind (hbox : GoodBox bMin bMax il csf)
    (hs : SortedIn (CellBlock.rebuild id bMin bMax il csf) home cells)
    (hm : ∀ p ∈ cells.flatten, 4 * distSq (pos p) (home p) ≤ il * il) {op : CellOp3}
    (hop : op ∈ (lcC01Triwise (CellBlock.rebuild id bMin bMax il csf).dims (CellBlock.rebuild id bMin bMax il csf).cellLength il).flatten)
    {i j : Int} {dir : V3 Rat} (ho : op = .pair i j dir ∨ ∃ k, op = .triple i j k dir) :
    NotBehind pos dir il (cellAt (lcCells (CellBlock.rebuild id bMin bMax il csf) cells) i).particles
      (cellAt (lcCells (CellBlock.rebuild id bMin bMax il csf) cells) j).particles := by
  have hzero : NotBehind pos ⟨0, 0, 0⟩ il (cellAt (lcCells (CellBlock.rebuild id bMin bMax il csf) cells) i).particles
      (cellAt (lcCells (CellBlock.rebuild id bMin bMax il csf) cells) j).particles := by
    intro p _ q _ hlt
    exfalso
    simp [V3.dot] at hlt
  rw [lcC01Triwise_eq] at hop
  obtain ⟨⟨b, e1, e2⟩, hq, rfl⟩ := List.mem_map.1 hop
  have item := c01_item (c18Dims_of hbox) hq
  have f1 := item.flat1
  have g1 := item.grid1
  have g0 := item.base
  have n1 := item.nonneg1
  simp only at f1 g1 g0 n1
  unfold c01TripleOp at ho
  dsimp only at ho
  split_ifs at ho with c1 c2 c3 c4
  all_goals simp only [reduceCtorEq, exists_false, false_or, or_false, CellOp3.pair.injEq, CellOp3.triple.injEq] at ho
  · obtain ⟨-, -, rfl⟩ := ho; exact hzero
  · obtain ⟨-, -, rfl⟩ := ho; exact hzero
  · obtain ⟨-, -, rfl⟩ := ho; exact hzero
  · exfalso; omega
  · obtain ⟨k, rfl, rfl, -, rfl⟩ := ho
    rw [f1]
    have mem : ∀ k : Int, ∀ p ∈ (cellAt (lcCells (CellBlock.rebuild id bMin bMax il csf) cells) k).particles, p ∈ cells.flatten := by
      intro k p hp
      rw [(cellAt_lcCells k).1] at hp
      exact mem_flatten_getD'.2 ⟨_, hp⟩
    have key : ∀ X, InGrid X (CellBlock.rebuild id bMin bMax il csf).dims →
        ∀ p ∈ (cellAt (lcCells (CellBlock.rebuild id bMin bMax il csf) cells) (threeToOneD X (CellBlock.rebuild id bMin bMax il csf).dims : Int)).particles,
        (CellBlock.rebuild id bMin bMax il csf).indexOfPosition id (home p) = X := by
      intro X hX p hp
      rw [(cellAt_lcCells _).1] at hp
      have := hs.home _ p hp
      rw [Int.toNat_natCast] at this
      exact flat_inj (hbox.inGrid (home p)) hX this
    have hdir : (⟨(e1.1 : Rat) * (CellBlock.rebuild id bMin bMax il csf).cellLength.x, (e1.2.1 : Rat) * (CellBlock.rebuild id bMin bMax il csf).cellLength.y,
        (e1.2.2 : Rat) * (CellBlock.rebuild id bMin bMax il csf).cellLength.z⟩ : V3 Rat) =
        cellDirection (CellBlock.rebuild id bMin bMax il csf).cellLength b (shift b e1) := by
      have c1 : ((shift b e1).x : Rat) - b.x = e1.1 := by
        have : ((shift b e1).x : Int) - b.x = e1.1 := by simp only [shift]; omega
        exact_mod_cast congrArg (Int.cast (R := Rat)) this
      have c2 : ((shift b e1).y : Rat) - b.y = e1.2.1 := by
        have : ((shift b e1).y : Int) - b.y = e1.2.1 := by simp only [shift]; omega
        exact_mod_cast congrArg (Int.cast (R := Rat)) this
      have c3 : ((shift b e1).z : Rat) - b.z = e1.2.2 := by
        have : ((shift b e1).z : Int) - b.z = e1.2.2 := by simp only [shift]; omega
        exact_mod_cast congrArg (Int.cast (R := Rat)) this
      unfold cellDirection
      rw [c1, c2, c3]
    rw [hdir]
    refine C18_cell_direction_not_behind bMin bMax il csf hbox pos home _ _ _ _ (key _ g0) (key _ g1) ?_
    intro p hp
    rw [List.mem_append] at hp
    rcases hp with hp | hp <;> exact hm p (mem _ p hp)

/-- The configuration of the cell functor of `lc_c01` (LCC01Traversal.h:100-101: cutoff; :145-148: not bidirectional; :125-128: no
Newton 3). -/
structure C01Functor3 (il : Rat) (pos : P → V3 Rat) (own : P → Ownership) (f : CellFunctorCfg P) : Prop where
  cutoff : f.cutoff = il
  bidirectional : f.bidirectional = false
  newton3 : f.newton3 = false
  sorts : f.Sorts pos
  halo : ∀ p, f.isHalo p = decide (own p = .halo)

theorem close_near {p q : P} {r : Rat} (hc : 0 ≤ cutoff) (hr : cutoff ≤ r) (h : Close pos cutoff p q) : Near pos r p q := by
  unfold Close at h
  unfold Near
  nlinarith

theorem lc3_complete (hcut : 0 ≤ cutoff) (hskin : 0 ≤ skin) (hbox : GoodBox bMin bMax (cutoff + skin) csf)
    (hf : C01Functor3 (cutoff + skin) pos own f)
    (hs : SortedIn (CellBlock.rebuild id bMin bMax (cutoff + skin) csf) home cells)
    (hm : ∀ p ∈ cells.flatten, 4 * distSq (pos p) (home p) ≤ skin * skin)
    (hin : ∀ p ∈ cells.flatten, own p = .owned → InBox (home p) bMin bMax) :
    CompleteCalls3 pos own cutoff cells.flatten (f.run3 (lcCells (CellBlock.rebuild id bMin bMax (cutoff + skin) csf) cells)
      (lcC01Triwise (CellBlock.rebuild id bMin bMax (cutoff + skin) csf).dims
        (CellBlock.rebuild id bMin bMax (cutoff + skin) csf).cellLength (cutoff + skin)).flatten) := by
  have hd := c18Dims_of hbox
  have hok := cells_ok hs
  have hboth : (f.newton3 || f.bidirectional) = false := by rw [hf.newton3, hf.bidirectional]; rfl
  have hvalid : ∀ op ∈ (lcC01Triwise (CellBlock.rebuild id bMin bMax (cutoff + skin) csf).dims
        (CellBlock.rebuild id bMin bMax (cutoff + skin) csf).cellLength (cutoff + skin)).flatten, ValidOp3 op := by
    intro op hop
    rw [lcC01Triwise_eq] at hop
    obtain ⟨q, hq, rfl⟩ := List.mem_map.1 hop
    have item := c01_item hd hq
    exact c01_valid (by omega) (by rw [item.flat1]; omega) (by rw [item.flat2]; omega)
  have hm' : ∀ p ∈ cells.flatten, 4 * distSq (pos p) (home p) ≤ (cutoff + skin) * (cutoff + skin) := fun p hp => by
    have := hm p hp; nlinarith
  refine ⟨?_, ?_, ?_⟩
  · intro a ha b hb c hc hab hac hbc hao hbo hco dab dac dbc
    obtain ⟨ma, la⟩ := mem_own_cell hs ha
    obtain ⟨mb, lb⟩ := mem_own_cell hs hb
    obtain ⟨mc, lc⟩ := mem_own_cell hs hc
    have hnear : ∀ {p q}, p ∈ cells.flatten → q ∈ cells.flatten → Close pos cutoff p q →
        distSq (home p) (home q) ≤ (cutoff + skin) * (cutoff + skin) := fun hp hq h =>
      home_near hcut hskin (le_of_lt h) (hm _ hp) (hm _ hq)
    unfold CellFunctorCfg.run3
    rw [timesReceived3_flatMap_indicator (q := hits3 false
      (threeToOneD ((CellBlock.rebuild id bMin bMax (cutoff + skin) csf).indexOfPosition id (home a)) (CellBlock.rebuild id bMin bMax (cutoff + skin) csf).dims)
      (threeToOneD ((CellBlock.rebuild id bMin bMax (cutoff + skin) csf).indexOfPosition id (home b)) (CellBlock.rebuild id bMin bMax (cutoff + skin) csf).dims)
      (threeToOneD ((CellBlock.rebuild id bMin bMax (cutoff + skin) csf).indexOfPosition id (home c)) (CellBlock.rebuild id bMin bMax (cutoff + skin) csf).dims))]
    · obtain ⟨w1, w2, w3⟩ := hbox.overlap_le
      obtain ⟨k1, k2⟩ := hbox.close (hnear ha hb dab)
      obtain ⟨k3, k4⟩ := hbox.close (hnear ha hc dac)
      obtain ⟨k5, k6⟩ := hbox.close (hnear hb hc dbc)
      exact c01_triwise_once hd w1 w2 w3 (hbox.not_halo (hin a ha hao)) k1 k3 k2 k4 k6
    · intro op hop
      have := op3_received hok hf.sorts (hvalid op hop) hab hac hbc ma mb mc (f := f) ?_ (by rw [hf.halo, hao]; rfl)
        (by rw [hf.cutoff]; exact ⟨close_near hcut (by linarith) dab, close_near hcut (by linarith) dac, close_near hcut (by linarith) dbc⟩) ?_
      · rw [hboth] at this; exact this
      · rw [(cellAt_lcCells _).2 (by simpa using la), Bool.not_eq_true', ← Bool.not_eq_true]
        simp only [Int.toNat_natCast]
        have hd := hbox.dims_ge
        rw [cellCanContainHalo_iff (b := CellBlock.rebuild id bMin bMax (cutoff + skin) csf) rfl rfl hd.1 hd.2.1 hd.2.2 (hbox.inGrid (home a))]
        exact hbox.not_halo (hin a ha hao)
      · intro i j dir ho
        rw [hf.cutoff]
        exact c01_triwise_notBehind hbox hs hm' hop ho
  · intro a b c
    refine le_trans (timesReceived3_flatMap_le (q := hits3 false
      (threeToOneD ((CellBlock.rebuild id bMin bMax (cutoff + skin) csf).indexOfPosition id (home a)) (CellBlock.rebuild id bMin bMax (cutoff + skin) csf).dims)
      (threeToOneD ((CellBlock.rebuild id bMin bMax (cutoff + skin) csf).indexOfPosition id (home b)) (CellBlock.rebuild id bMin bMax (cutoff + skin) csf).dims)
      (threeToOneD ((CellBlock.rebuild id bMin bMax (cutoff + skin) csf).indexOfPosition id (home c)) (CellBlock.rebuild id bMin bMax (cutoff + skin) csf).dims)) ?_)
      (c01_triwise_most hd _ _ _)
    intro op hop
    have := op3_received_le (f := f) (a := a) (b := b) (c := c) hok hf.sorts (hvalid op hop)
    rw [hboth] at this; exact this
  · intro a b c hx
    have : ∃ op ∈ (lcC01Triwise (CellBlock.rebuild id bMin bMax (cutoff + skin) csf).dims
        (CellBlock.rebuild id bMin bMax (cutoff + skin) csf).cellLength (cutoff + skin)).flatten,
        timesReceived3 (f.op3 (lcCells (CellBlock.rebuild id bMin bMax (cutoff + skin) csf) cells) op) a b c ≠ 0 := by
      by_contra hno
      push Not at hno
      apply hx
      unfold CellFunctorCfg.run3
      have h0 := timesReceived3_flatMap_le (q := fun _ => false) (fun op hop => by rw [hno op hop]; simp)
      rw [List.countP_false] at h0
      exact Nat.le_zero.1 h0
    obtain ⟨op, hop, hx⟩ := this
    obtain ⟨m1, m2, m3, e, -⟩ := op3_receiver hok hf.sorts (hvalid op hop) hx
    have mem : ∀ k : Int, ∀ p ∈ (cellAt (lcCells (CellBlock.rebuild id bMin bMax (cutoff + skin) csf) cells) k).particles, p ∈ cells.flatten := by
      intro k p hp
      rw [(cellAt_lcCells k).1] at hp
      exact mem_flatten_getD'.2 ⟨_, hp⟩
    exact ⟨mem _ _ m1, mem _ _ m2, mem _ _ m3, e⟩


theorem dsOps3_valid : ∀ op ∈ dsOps3 7, ValidOp3 op := by
  have : ∀ op ∈ dsOps3 7, (∀ i ∈ touched3 op, 0 ≤ i) ∧ (touched3 op).Nodup := by decide +kernel
  exact this

theorem dsOps3_once (both : Bool) {j k : Nat} (hj : j ≤ 6) (hk : k ≤ 6) : (dsOps3 7).countP (hits3 both 0 (j : Int) (k : Int)) = 1 := by
  have h1 : ∀ j : Nat, j < 7 → ∀ k : Nat, k < 7 → (dsOps3 7).countP (hits3 false 0 (j : Int) (k : Int)) = 1 := by decide +kernel
  have h2 : ∀ j : Nat, j < 7 → ∀ k : Nat, k < 7 → (dsOps3 7).countP (hits3 true 0 (j : Int) (k : Int)) = 1 := by decide +kernel
  cases both
  · exact h1 j (by omega) k (by omega)
  · exact h2 j (by omega) k (by omega)

theorem dsOps3_most (both : Bool) {i j k : Nat} (hi : i ≤ 6) (hj : j ≤ 6) (hk : k ≤ 6) :
    (dsOps3 7).countP (hits3 both (i : Int) (j : Int) (k : Int)) ≤ 1 := by
  have h1 : ∀ i : Nat, i < 7 → ∀ j : Nat, j < 7 → ∀ k : Nat, k < 7 → (dsOps3 7).countP (hits3 false (i : Int) (j : Int) (k : Int)) ≤ 1 := by decide +kernel
  have h2 : ∀ i : Nat, i < 7 → ∀ j : Nat, j < 7 → ∀ k : Nat, k < 7 → (dsOps3 7).countP (hits3 true (i : Int) (j : Int) (k : Int)) ≤ 1 := by decide +kernel
  cases both
  · exact h1 i (by omega) j (by omega) k (by omega)
  · exact h2 i (by omega) j (by omega) k (by omega)

private def firstPair : CellOp3 → List CellOp
  | .self _ => []
  | .pair i j dir => [.pair i j dir]
  | .triple i j _ dir => [.pair i j dir]

/-- The sorting directions are those of the pairwise traversal. -/
theorem dsOps3_dir : ∀ op ∈ dsOps3 7, ∀ i j dir, (op = .pair i j dir ∨ ∃ k, op = .triple i j k dir) → CellOp.pair i j dir ∈ dsOps 7 := by
  have : ∀ op ∈ dsOps3 7, ∀ x ∈ firstPair op, x ∈ dsOps 7 := by decide +kernel
  intro op hop i j dir h
  apply this op hop
  rcases h with rfl | ⟨k, rfl⟩ <;> simp [firstPair]

theorem ds3_complete (hcut : 0 ≤ cutoff) (hskin : 0 ≤ skin) (hsc : skin ≤ cutoff) (hs : DSSorted bMin bMax home cells)
    (hf : DSFunctor cutoff pos own f)
    (hm : ∀ p ∈ cells.flatten, 4 * distSq (pos p) (home p) ≤ skin * skin)
    (hin : ∀ p ∈ cells.flatten, own p = .owned → InBox (home p) bMin bMax) :
    CompleteCalls3 pos own cutoff cells.flatten (dsCalls3 f cells) := by
  have hok := ds_cells_ok hs
  have hmem : ∀ p ∈ cells.flatten, p ∈ (cellAt (dsPCells cells) (dsCellOf bMin bMax (home p) : Int)).particles := by
    intro p hp
    obtain ⟨k, hk⟩ := mem_flatten_getD'.1 hp
    rw [(cellAt_dsPCells _).1, Int.toNat_natCast, hs.home k p hk]
    exact hk
  have h7 : dsCalls3 f cells = f.run3 (dsPCells cells) (dsOps3 7) := by unfold dsCalls3; rw [hs.length]
  rw [h7]
  refine ⟨?_, ?_, ?_⟩
  · intro a ha b hb c hc hab hac hbc hao hbo hco dab dac dbc
    have h0 : dsCellOf bMin bMax (home a) = 0 := dsCellOf_zero.2 (hin a ha hao)
    unfold CellFunctorCfg.run3
    rw [timesReceived3_flatMap_indicator (q := hits3 (f.newton3 || f.bidirectional) (dsCellOf bMin bMax (home a) : Int)
      (dsCellOf bMin bMax (home b) : Int) (dsCellOf bMin bMax (home c) : Int))]
    · rw [h0]
      exact dsOps3_once _ (dsCellOf_le _ _ _) (dsCellOf_le _ _ _)
    · intro op hop
      refine op3_received hok hf.sorts (dsOps3_valid op hop) hab hac hbc (hmem a ha) (hmem b hb) (hmem c hc) ?_ (by rw [hf.halo, hao]; rfl)
        (by rw [hf.cutoff]; exact ⟨le_of_lt dab, le_of_lt dac, le_of_lt dbc⟩) ?_
      · rw [(cellAt_dsPCells _).2 (by rw [h0, hs.length]; decide), h0]; rfl
      · intro i j dir ho
        rw [hf.cutoff]
        exact ds_notBehind hs hskin hsc hm (dsOps3_dir op hop i j dir ho)
  · intro a b c
    refine le_trans (timesReceived3_flatMap_le (q := hits3 (f.newton3 || f.bidirectional) (dsCellOf bMin bMax (home a) : Int)
      (dsCellOf bMin bMax (home b) : Int) (dsCellOf bMin bMax (home c) : Int)) ?_)
      (dsOps3_most _ (dsCellOf_le _ _ _) (dsCellOf_le _ _ _) (dsCellOf_le _ _ _))
    intro op hop
    exact op3_received_le hok hf.sorts (dsOps3_valid op hop)
  · intro a b c hx
    have : ∃ op ∈ dsOps3 7, timesReceived3 (f.op3 (dsPCells cells) op) a b c ≠ 0 := by
      by_contra hno
      push Not at hno
      apply hx
      unfold CellFunctorCfg.run3
      have h0 := timesReceived3_flatMap_le (q := fun _ => false) (fun op hop => by rw [hno op hop]; simp)
      rw [List.countP_false] at h0
      exact Nat.le_zero.1 h0
    obtain ⟨op, hop, hx⟩ := this
    obtain ⟨m1, m2, m3, e, -⟩ := op3_receiver hok hf.sorts (dsOps3_valid op hop) hx
    have mem : ∀ k : Int, ∀ p ∈ (cellAt (dsPCells cells) k).particles, p ∈ cells.flatten := by
      intro k p hp
      rw [(cellAt_dsPCells k).1] at hp
      exact mem_flatten_getD'.2 ⟨_, hp⟩
    exact ⟨mem _ _ m1, mem _ _ m2, mem _ _ m3, e⟩

end
end Verif
