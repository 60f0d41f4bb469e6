import Verif.Lemmas.LCC04Base
/-! A row of base cells of `lc_c04_combined_SoA`, with overlap 1. -/
namespace Verif
open Spec

section
variable {P M : Type} [DecidableEq P] [AddCommMonoid M] {parts : Nat → List P} {size : Nat → Nat}

/-- The calls for base cell `b`. -/
def c04BaseCalls (parts : Nat → List P) (dx A : Nat) (n3 : Bool) (b : Nat) : List (PairCall P) :=
  ((c04One dx A).pairs.getD 0 []).flatMap (entryCalls parts dx n3 b 0) ++ ((c04One dx A).pairs.getD 1 []).flatMap (entryCalls parts dx n3 b 1)

theorem entries_hold (hp : OwnCells parts) (hsize : ∀ c, size c = (parts c).length) {dx A b cur slice k : Nat} (hdx : 2 ≤ dx)
    (hA : dx + 2 ≤ A) (hcur : cur < 2) (hk : (slice = cur ∧ k = 0) ∨ (slice = 1 - cur ∧ k = 1)) (F : P → P → M) (n3 : Bool)
    (es : List (Nat × Nat × Nat)) : ∀ (m : P → M) (st : C04State P M), Holding parts (colsAt dx b cur) m st → st.current = cur →
    (∀ e ∈ es, EntryOk dx A k e) →
    Holding parts (colsAt dx b cur) (fun p => m p + accumulated F (es.flatMap (entryCalls parts dx n3 b k)) p)
      (es.foldl (C04State.entry F n3 size (c04One dx A) b slice) st) ∧
    (es.foldl (C04State.entry F n3 size (c04One dx A) b slice) st).current = cur := by
  induction es with
  | nil =>
    intro m st H hc _
    simpa using And.intro H hc
  | cons e es ih =>
    intro m st H hc he
    obtain ⟨H1, hc1⟩ := entry_holds hp hsize hdx hA hcur hk H hc (he e (by simp)) F n3
    have := ih _ _ H1 hc1 (fun x hx => he x (by simp [hx]))
    simp only [List.foldl_cons, List.flatMap_cons, accumulated_append, ← add_assoc]
    exact this

theorem entryOk_pairs {dx A k : Nat} {e : Nat × Nat × Nat} (hk : k < 2) (he : e ∈ (c04One dx A).pairs.getD k []) : EntryOk dx A k e := by
  rcases (show k = 0 ∨ k = 1 by omega) with rfl | rfl
  · simp only [c04One, List.getD_cons_zero, List.mem_cons, List.not_mem_nil, or_false] at he
    rcases he with rfl | rfl | rfl | rfl | rfl | rfl
    · exact ⟨.inl rfl, .inl ⟨rfl, rfl⟩⟩
    · exact ⟨.inr (.inr rfl), .inr (.inl ⟨rfl, rfl, rfl⟩)⟩
    · exact ⟨.inl rfl, .inr (.inr (by simp))⟩
    · exact ⟨.inl rfl, .inr (.inr (by simp))⟩
    · exact ⟨.inr (.inl rfl), .inr (.inr (by simp))⟩
    · exact ⟨.inr (.inl rfl), .inr (.inr (by simp; omega))⟩
  · simp only [c04One, List.getD_cons_succ, List.getD_cons_zero, List.mem_cons, List.not_mem_nil, or_false] at he
    rcases he with rfl | rfl | rfl
    · exact ⟨.inl rfl, .inl ⟨rfl, rfl⟩⟩
    · exact ⟨.inl rfl, .inr (.inr (by simp))⟩
    · exact ⟨.inr (.inl rfl), .inr (.inr (by simp))⟩

/-- The loop over the slices. -/
def C04State.slices (F : P → P → M) (n3 : Bool) (size : Nat → Nat) (t : C04Tables) (b : Nat) (st : C04State P M) : C04State P M :=
  (List.range t.base.length).foldl (fun st slice =>
    (t.pairs.getD ((slice + st.current) % t.base.length) []).foldl (C04State.entry F n3 size t b slice) st) st

theorem slices_hold (hp : OwnCells parts) (hsize : ∀ c, size c = (parts c).length) {dx A b cur : Nat} (hdx : 2 ≤ dx)
    (hA : dx + 2 ≤ A) (hcur : cur < 2) (F : P → P → M) (n3 : Bool) {m : P → M} {st : C04State P M}
    (H : Holding parts (colsAt dx b cur) m st) (hc : st.current = cur) :
    Holding parts (colsAt dx b cur) (fun p => m p + accumulated F (c04BaseCalls parts dx A n3 b) p)
      (st.slices F n3 size (c04One dx A) b) ∧ (st.slices F n3 size (c04One dx A) b).current = cur := by
  have hlen : (c04One dx A).base.length = 2 := rfl
  unfold C04State.slices c04BaseCalls
  rw [hlen, show List.range 2 = [0, 1] from rfl]
  simp only [List.foldl_cons, List.foldl_nil]
  rcases (show cur = 0 ∨ cur = 1 by omega) with rfl | rfl
  · simp only [hc]
    obtain ⟨H1, hc1⟩ := entries_hold hp hsize hdx hA hcur (slice := 0) (k := 0) (.inl ⟨rfl, rfl⟩) F n3 _ m st H hc
      (fun e he => entryOk_pairs (by omega) he)
    obtain ⟨H2, hc2⟩ := entries_hold hp hsize hdx hA hcur (slice := 1) (k := 1) (.inr ⟨rfl, rfl⟩) F n3 _ _ _ H1 hc1
      (fun e he => entryOk_pairs (by omega) he)
    simp only [accumulated_append, ← add_assoc]
    have e1 : (0 + 0) % 2 = 0 := rfl
    rw [e1, hc1]
    exact ⟨H2, hc2⟩
  · simp only [hc]
    obtain ⟨H1, hc1⟩ := entries_hold hp hsize hdx hA hcur (slice := 0) (k := 1) (.inr ⟨rfl, rfl⟩) F n3 _ m st H hc
      (fun e he => entryOk_pairs (by omega) he)
    obtain ⟨H2, hc2⟩ := entries_hold hp hsize hdx hA hcur (slice := 1) (k := 0) (.inl ⟨rfl, rfl⟩) F n3 _ _ _ H1 hc1
      (fun e he => entryOk_pairs (by omega) he)
    have e1 : (0 + 1) % 2 = 1 := rfl
    rw [e1, hc1]
    refine ⟨?_, hc2⟩
    refine cast (congrArg (fun x => Holding parts (colsAt dx b 1) x _) ?_) H2
    funext p
    rw [accumulated_append, add_assoc]
    congr 1
    exact add_comm _ _

/-- Before base cell `b` in the middle of a row: slot `cur` is free, the other one holds the column of `b`. -/
def colMid (dx b cur : Nat) : Nat → List Nat := fun s => if s = 1 - cur then [b, b + dx] else []

omit [DecidableEq P] [AddCommMonoid M] in
theorem Holding.congr {h h' : Nat → List Nat} {m : P → M} {st : C04State P M} (H : Holding parts h m st) (e : h = h') : Holding parts h' m st :=
  e ▸ H

theorem colsAt_start (dx b : Nat) : Function.update (Function.update (fun _ => []) 0 [b, b + dx]) 1 [b + 1, b + (dx + 1)] = colsAt dx b 0 := by
  funext s
  by_cases h1 : s = 1
  · subst h1; rw [Function.update_self]; simp [colsAt]
  · rw [Function.update_of_ne h1]
    by_cases h0 : s = 0
    · subst h0; rw [Function.update_self]; simp [colsAt]
    · rw [Function.update_of_ne h0]; simp [colsAt, h0, h1]

theorem colsAt_mid (dx b cur : Nat) (hc : cur < 2) :
    Function.update (colMid dx b cur) cur [b + 1, b + (dx + 1)] = colsAt dx b (1 - cur) := by
  funext s
  have h2 : 1 - (1 - cur) = cur := by omega
  by_cases h : s = cur
  · subst h
    rw [Function.update_self]; unfold colsAt
    rw [if_neg (by omega), h2, if_pos rfl]
  · rw [Function.update_of_ne h]; unfold colsAt colMid
    rw [h2, if_neg h]

theorem colsAt_end (dx b cur : Nat) (hc : cur < 2) : Function.update (colsAt dx b cur) cur [] = colMid dx (b + 1) cur := by
  funext s
  by_cases h : s = cur
  · subst h
    rw [Function.update_self]; unfold colMid
    rw [if_neg (by omega)]
  · rw [Function.update_of_ne h]; unfold colsAt colMid
    rw [if_neg h, show b + 1 + dx = b + (dx + 1) by omega]

theorem colMid_last (dx b cur : Nat) : Function.update (colMid dx b cur) (1 - cur) [] = fun _ => [] := by
  funext s
  by_cases h : s = 1 - cur
  · subst h; rw [Function.update_self]
  · rw [Function.update_of_ne h]; unfold colMid; rw [if_neg h]

theorem twoSlots_colMid {dx b cur : Nat} (hdx : 2 ≤ dx) (hc : cur < 2) : TwoSlots (colMid dx b cur) := by
  constructor
  · rcases (show cur = 0 ∨ cur = 1 by omega) with rfl | rfl <;> simp [colMid] <;> omega
  · intro s hs
    unfold colMid
    rw [if_neg (by omega)]

theorem flat_succ (dims : V3 Nat) (x y z : Nat) : threeToOneD ⟨x + 1, y, z⟩ dims = threeToOneD ⟨x, y, z⟩ dims + 1 := by
  simp only [threeToOneD]; omega

private theorem fold_last {S : Type} (f : S → Nat → S) (s : S) : ((List.range 2).drop 1).foldl f s = f s 1 := rfl

/-- The end of a base cell: interactions, and write back. `last`: this is the last base cell of the row. -/
theorem finish_hold (hp : OwnCells parts) (hsize : ∀ c, size c = (parts c).length) {dx A b cur : Nat} (hdx : 2 ≤ dx)
    (hA : dx + 2 ≤ A) (hcur : cur < 2) (F : P → P → M) (n3 : Bool) (dummy : P × M) {m : P → M} {st : C04State P M}
    (H : Holding parts (colsAt dx b cur) m st) (hc : st.current = cur) :
    let st1 := st.slices F n3 size (c04One dx A) b
    let st2 := C04State.store dummy (c04One dx A) b st1 st1.current 0
    let st3 := C04State.store dummy (c04One dx A) b st2 ((st2.current + 1) % 2) 1
    (Holding parts (colMid dx (b + 1) cur) (fun p => m p + accumulated F (c04BaseCalls parts dx A n3 b) p) st2 ∧ st2.current = cur) ∧
    Holding parts (fun _ => []) (fun p => m p + accumulated F (c04BaseCalls parts dx A n3 b) p) st3 := by
  intro st1 st2 st3
  have hst3 : st3 = C04State.store dummy (c04One dx A) b st2 ((st2.current + 1) % 2) 1 := rfl
  clear_value st3
  have hst2 : st2 = C04State.store dummy (c04One dx A) b st1 st1.current 0 := rfl
  clear_value st2
  obtain ⟨H1, hc1⟩ := slices_hold hp hsize hdx hA hcur F n3 H hc
  change Holding _ _ _ st1 at H1
  change st1.current = cur at hc1
  clear_value st1
  rw [hc1] at hst2
  have h2 := holding_store (twoSlots_colsAt hdx hcur) H1 (t := c04One dx A) (base := b) (s := cur) (k := 0) (o₁ := 0) (o₂ := dx) rfl
    (by simp [colsAt]) dummy
  rw [← hst2] at h2
  have H2 := h2.1.congr (colsAt_end dx b cur hcur)
  have hc2 : st2.current = cur := h2.2.trans hc1
  refine ⟨⟨H2, hc2⟩, ?_⟩
  rw [hc2, show (cur + 1) % 2 = 1 - cur by omega] at hst3
  have h3 := holding_store (twoSlots_colMid hdx hcur) H2 (t := c04One dx A) (base := b) (s := 1 - cur) (k := 1) (o₁ := 1) (o₂ := dx + 1) rfl
    (by unfold colMid; rw [if_pos rfl, show b + 1 + dx = b + (dx + 1) by omega]) dummy
  rw [hst3]
  exact h3.1.congr (colMid_last dx (b + 1) cur)

/-- The calls of the base cells `x, x + 1, …, stop - 1` of a row. -/
def rowCalls (parts : Nat → List P) (dims : V3 Nat) (n3 : Bool) (y z : Nat) (xs : List Nat) : List (PairCall P) :=
  xs.flatMap fun x => c04BaseCalls parts dims.x (dims.x * dims.y) n3 (threeToOneD ⟨x, y, z⟩ dims)

variable {dims : V3 Nat}

theorem baseCell_eq (dummy : P × M) (F : P → P → M) (n3 : Bool) (size : Nat → Nat) (t : C04Tables) (dims ov : V3 Nat) (y z : Nat)
    (st : C04State P M) (x : Nat) : C04State.baseCell dummy F n3 size t dims ov y z st x =
      let base := threeToOneD ⟨x, y, z⟩ dims
      let st0 :=
        if x = 0 then (List.range t.base.length).foldl (fun st slice => C04State.load size t base st slice slice) { st with current := 0 }
        else
          let st := C04State.load size t base st st.current (t.base.length - 1)
          { st with current := (st.current + 1) % t.base.length }
      let st1 := st0.slices F n3 size t base
      let st2 := C04State.store dummy t base st1 st1.current 0
      if x = dims.x - ov.x - 1 then
        ((List.range t.base.length).drop 1).foldl (fun st slice =>
          C04State.store dummy t base st ((st.current + slice) % t.base.length) slice) st2
      else st2 := rfl

/-- A base cell once the buffers are filled. -/
private theorem cell_from {t0 : C04State P M} (hp : OwnCells parts) (hsize : ∀ c, size c = (parts c).length) (hdx : 2 ≤ dims.x)
    (hA : dims.x + 2 ≤ dims.x * dims.y) (F : P → P → M) (n3 : Bool) (dummy : P × M) {x y z cur : Nat} (hcur : cur < 2) {m : P → M}
    {st : C04State P M} (ht0 : (if x = 0 then (List.range (c04One dims.x (dims.x * dims.y)).base.length).foldl (fun st slice =>
        C04State.load size (c04One dims.x (dims.x * dims.y)) (threeToOneD ⟨x, y, z⟩ dims) st slice slice) { st with current := 0 }
      else
        let st := C04State.load size (c04One dims.x (dims.x * dims.y)) (threeToOneD ⟨x, y, z⟩ dims) st st.current
          ((c04One dims.x (dims.x * dims.y)).base.length - 1)
        { st with current := (st.current + 1) % (c04One dims.x (dims.x * dims.y)).base.length }) = t0)
    (H : Holding parts (colsAt dims.x (threeToOneD ⟨x, y, z⟩ dims) cur) m t0) (hc : t0.current = cur) :
    (x ≠ dims.x - 2 → Holding parts (colMid dims.x (threeToOneD ⟨x + 1, y, z⟩ dims) cur)
        (fun p => m p + accumulated F (c04BaseCalls parts dims.x (dims.x * dims.y) n3 (threeToOneD ⟨x, y, z⟩ dims)) p)
        (C04State.baseCell dummy F n3 size (c04One dims.x (dims.x * dims.y)) dims ⟨1, 1, 1⟩ y z st x) ∧
      (C04State.baseCell dummy F n3 size (c04One dims.x (dims.x * dims.y)) dims ⟨1, 1, 1⟩ y z st x).current = cur) ∧
    (x = dims.x - 2 → Holding parts (fun _ => [])
        (fun p => m p + accumulated F (c04BaseCalls parts dims.x (dims.x * dims.y) n3 (threeToOneD ⟨x, y, z⟩ dims)) p)
        (C04State.baseCell dummy F n3 size (c04One dims.x (dims.x * dims.y)) dims ⟨1, 1, 1⟩ y z st x)) := by
  obtain ⟨h1, h2⟩ := finish_hold hp hsize hdx hA hcur F n3 dummy H hc
  rw [baseCell_eq]
  simp only
  rw [ht0, flat_succ, show dims.x - 1 - 1 = dims.x - 2 by omega]
  constructor
  · intro hx
    rw [if_neg hx]
    exact h1
  · intro hx
    rw [if_pos hx, show (c04One dims.x (dims.x * dims.y)).base.length = 2 from rfl, fold_last]
    exact h2

omit [DecidableEq P] [AddCommMonoid M] in
private theorem mid_load (hsize : ∀ c, size c = (parts c).length) {dx A b cur : Nat} (hdx : 2 ≤ dx) (hcur : cur < 2) {m : P → M}
    {st : C04State P M} (H : Holding parts (colMid dx b cur) m st) (hc : st.current = cur) :
    Holding parts (colsAt dx b (1 - cur)) m { C04State.load size (c04One dx A) b st st.current ((c04One dx A).base.length - 1) with
      current := ((C04State.load size (c04One dx A) b st st.current ((c04One dx A).base.length - 1)).current + 1) % (c04One dx A).base.length } ∧
    (({ C04State.load size (c04One dx A) b st st.current ((c04One dx A).base.length - 1) with
      current := ((C04State.load size (c04One dx A) b st st.current ((c04One dx A).base.length - 1)).current + 1) %
        (c04One dx A).base.length } : C04State P M)).current = 1 - cur := by
  have h := holding_load hsize H (t := c04One dx A) (base := b) (s := cur) (k := 1) (cs := [b + 1, b + (dx + 1)]) rfl
    (by unfold colMid; rw [if_neg (by omega)]) (by
      intro c hcs
      simp only [List.mem_cons, List.not_mem_nil, or_false] at hcs
      unfold colMid
      constructor <;> (split <;> simp only [List.mem_cons, List.not_mem_nil, or_false, not_false_eq_true] <;> omega))
  have h := h.congr (colsAt_mid dx b cur hcur)
  rw [show (c04One dx A).base.length = 2 from rfl, hc]
  refine ⟨⟨h.mem, h.offsets⟩, ?_⟩
  show (st.current + 1) % 2 = 1 - cur
  omega

omit [DecidableEq P] [AddCommMonoid M] in
private theorem start_load (hsize : ∀ c, size c = (parts c).length) {dx A b : Nat} (hdx : 2 ≤ dx) {m : P → M}
    {st : C04State P M} (H : Holding parts (fun _ => []) m st) :
    Holding parts (colsAt dx b 0) m ((List.range (c04One dx A).base.length).foldl (fun st slice =>
        C04State.load size (c04One dx A) b st slice slice) { st with current := 0 }) ∧
    ((List.range (c04One dx A).base.length).foldl (fun st slice =>
        C04State.load size (c04One dx A) b st slice slice) { st with current := 0 }).current = 0 := by
  rw [show (c04One dx A).base.length = 2 from rfl, show List.range 2 = [0, 1] from rfl]
  simp only [List.foldl_cons, List.foldl_nil]
  have H0 : Holding parts (fun _ => []) m { st with current := 0 } := ⟨H.mem, H.offsets⟩
  have h1 := holding_load hsize H0 (t := c04One dx A) (base := b) (s := 0) (k := 0) (cs := [b, b + dx]) rfl rfl (by simp)
  have h2 := holding_load hsize h1 (t := c04One dx A) (base := b) (s := 1) (k := 1) (cs := [b + 1, b + (dx + 1)]) rfl (by simp) (by
      intro c hcs
      simp only [List.mem_cons, List.not_mem_nil, or_false] at hcs
      rw [Function.update_self, Function.update_of_ne (by omega)]
      simp only [List.mem_cons, List.not_mem_nil, or_false, not_false_eq_true, and_true]
      omega)
  exact ⟨h2.congr (colsAt_start dx b), rfl⟩

/-- The rest of a row, from the second base cell on. -/
theorem row_rest (hp : OwnCells parts) (hsize : ∀ c, size c = (parts c).length) (hdx : 2 ≤ dims.x) (hA : dims.x + 2 ≤ dims.x * dims.y)
    (F : P → P → M) (n3 : Bool) (dummy : P × M) (y z : Nat) (n : Nat) :
    ∀ (x : Nat) (cur : Nat) (m : P → M) (st : C04State P M), x + n + 1 = dims.x - 1 → 0 < x → cur < 2 → st.current = cur →
    Holding parts (colMid dims.x (threeToOneD ⟨x, y, z⟩ dims) cur) m st →
    Holding parts (fun _ => []) (fun p => m p + accumulated F (rowCalls parts dims n3 y z (forUp x (dims.x - 1) 1)) p)
      ((forUp x (dims.x - 1) 1).foldl (C04State.baseCell dummy F n3 size (c04One dims.x (dims.x * dims.y)) dims ⟨1, 1, 1⟩ y z) st) := by
  induction n with
  | zero =>
    intro x cur m st hx h0 hcur hc H
    obtain ⟨H0, hc0⟩ := mid_load (A := dims.x * dims.y) hsize hdx hcur H hc
    have := (cell_from hp hsize hdx hA F n3 dummy (x := x) (y := y) (z := z) (cur := 1 - cur) (by omega) (st := st)
      (if_neg (by omega)) (m := m) H0 hc0).2 (by omega)
    rw [forUp_one_cons (by omega), forUp_one_nil (by omega)]
    simpa [rowCalls] using this
  | succ n ih =>
    intro x cur m st hx h0 hcur hc H
    obtain ⟨H0, hc0⟩ := mid_load (A := dims.x * dims.y) hsize hdx hcur H hc
    obtain ⟨H1, hc1⟩ := (cell_from hp hsize hdx hA F n3 dummy (x := x) (y := y) (z := z) (cur := 1 - cur) (by omega) (st := st)
      (if_neg (by omega)) (m := m) H0 hc0).1 (by omega)
    have := ih (x + 1) (1 - cur) _ _ (by omega) (by omega) (by omega) hc1 H1
    rw [forUp_one_cons (by omega)]
    simp only [rowCalls, List.flatMap_cons, List.foldl_cons, accumulated_append, ← add_assoc] at this ⊢
    exact this

/-- A row: whatever is in the combined buffers at first, in the end all that counts is in the cells again. -/
theorem row_hold (hp : OwnCells parts) (hsize : ∀ c, size c = (parts c).length) (hdx : 2 ≤ dims.x) (hA : dims.x + 2 ≤ dims.x * dims.y)
    (F : P → P → M) (n3 : Bool) (dummy : P × M) (row : Nat × Nat) {m : P → M} {st : C04State P M} (H : Holding parts (fun _ => []) m st) :
    Holding parts (fun _ => []) (fun p => m p + accumulated F (rowCalls parts dims n3 row.1 row.2 (forUp 0 (dims.x - 1) 1)) p)
      (C04State.row dummy F n3 size (c04One dims.x (dims.x * dims.y)) dims ⟨1, 1, 1⟩ st row) := by
  obtain ⟨H0, hc0⟩ := start_load (A := dims.x * dims.y) (b := threeToOneD ⟨0, row.1, row.2⟩ dims) hsize hdx H
  have hcell := cell_from hp hsize hdx hA F n3 dummy (x := 0) (y := row.1) (z := row.2) (cur := 0) (by omega) (st := st)
      (if_pos rfl) (m := m) H0 hc0
  unfold C04State.row
  rw [show (dims.sub ⟨1, 1, 1⟩).x = dims.x - 1 from rfl]
  by_cases h2 : dims.x = 2
  · have := hcell.2 (by omega)
    rw [forUp_one_cons (by omega), forUp_one_nil (by omega)]
    simpa [rowCalls] using this
  · obtain ⟨H1, hc1⟩ := hcell.1 (by omega)
    have := row_rest hp hsize hdx hA F n3 dummy row.1 row.2 (dims.x - 3) (0 + 1) 0 _ _ (by omega) (by omega) (by omega) hc1 H1
    rw [forUp_one_cons (by omega)]
    simp only [rowCalls, List.flatMap_cons, List.foldl_cons, accumulated_append, ← add_assoc] at this ⊢
    exact this

/-- The whole traversal, one row after the other. -/
theorem lcC04Combined_hold (hp : OwnCells parts) (hsize : ∀ c, size c = (parts c).length) (hdx : 2 ≤ dims.x)
    (hA : dims.x + 2 ≤ dims.x * dims.y) (F : P → P → M) (n3 : Bool) (dummy : P × M) (rows : List ((Nat × Nat) × C04Buffers P M)) :
    ∀ (m : P → M) (cells : Nat → List (P × M)), (∀ i, cells i = tag m (parts i)) → ∀ i,
    lcC04Combined dummy F n3 size (c04One dims.x (dims.x * dims.y)) dims ⟨1, 1, 1⟩ cells rows i =
      tag (fun p => m p + accumulated F (rows.flatMap fun r => rowCalls parts dims n3 r.1.1 r.1.2 (forUp 0 (dims.x - 1) 1)) p) (parts i) := by
  induction rows with
  | nil =>
    intro m cells h i
    simpa [lcC04Combined] using h i
  | cons r rows ih =>
    intro m cells h i
    have H : Holding parts (fun _ => []) m (⟨fun | .cell i => cells i | .slot s => r.2.slots s, r.2.offsets, r.2.current⟩ : C04State P M) := by
      refine ⟨fun r Z hr => ?_, fun s hs => absurd rfl hs⟩
      cases r with
      | slot s => simp [heldIn] at hr
      | cell c =>
        simp [heldIn] at hr
        subst hr
        exact h c
    have H1 := row_hold hp hsize hdx hA F n3 dummy r.1 H
    have := ih _ _ (fun i => holding_cell H1 (c := i) (by simp) (by simp)) i
    simp only [List.flatMap_cons, accumulated_append, ← add_assoc] at this ⊢
    exact this

end

end Verif
