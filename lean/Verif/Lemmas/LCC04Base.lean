import Verif.Lemmas.LCC04Rows
/-! The interactions of a base cell of `lc_c04_combined_SoA`, with overlap 1. -/
namespace Verif
open Spec

section
variable {P M : Type} [DecidableEq P] [AddCommMonoid M] {parts : Nat → List P} {size : Nat → Nat}

/-- Slot `cur` holds the column of the base cell `b`, the other slot the next column. -/
def colsAt (dx b cur : Nat) : Nat → List Nat :=
  fun s => if s = cur then [b, b + dx] else if s = 1 - cur then [b + 1, b + (dx + 1)] else []

theorem twoSlots_colsAt {dx b cur : Nat} (hdx : 2 ≤ dx) (hc : cur < 2) : TwoSlots (colsAt dx b cur) := by
  constructor
  · rcases (show cur = 0 ∨ cur = 1 by omega) with rfl | rfl <;> simp [colsAt] <;> omega
  · intro s hs
    unfold colsAt
    rw [if_neg (by omega), if_neg (by omega)]

/-- The particles of an interval of the column of cell `c`. -/
def intervalParts (parts : Nat → List P) (c c' : Nat) (i : Nat × Nat) : List P :=
  if i = (0, 2) then parts c ++ parts c' else if i = (0, 1) then parts c else parts c'

/-- The calls of an entry of the table for column `k`. -/
def entryCalls (parts : Nat → List P) (dx : Nat) (n3 : Bool) (b k : Nat) (e : Nat × Nat × Nat) : List (PairCall P) :=
  if e.1 = 0 ∧ k = 0 then soaSingle n3 (parts b) ++ bothCalls n3 (parts b) (parts (b + dx))
  else bothCalls n3 (parts (b + e.1)) (intervalParts parts (b + k) (b + (dx + k)) e.2)

/-- An interval as the tables have it. -/
def IntervalOk (i : Nat × Nat) : Prop := i = (0, 2) ∨ i = (0, 1) ∨ i = (1, 2)

omit [DecidableEq P] [AddCommMonoid M] in
theorem offsets_two {h : Nat → List Nat} {m : P → M} {st : C04State P M} (H : Holding parts h m st) {s c c' : Nat} (hs : h s = [c, c']) :
    st.offsets s = [0, (parts c).length, (parts c).length + (parts c').length] := by
  rw [H.offsets s (by rw [hs]; simp), hs]
  simp [List.scanl]

omit [DecidableEq P] [AddCommMonoid M] in
theorem shows_interval {h : Nat → List Nat} {m : P → M} {st : C04State P M} (H : Holding parts h m st) {s c c' : Nat} (hs : h s = [c, c'])
    {i : Nat × Nat} (hi : IntervalOk i) :
    Shows (heldIn parts h) ⟨.slot s, (st.offsets s).getD i.1 0, (st.offsets s).getD i.2 0⟩ (intervalParts parts c c' i) := by
  have hV : heldIn parts h (.slot s) = some (parts c ++ parts c') := by simp [heldIn, hs]
  rw [offsets_two H hs]
  rcases hi with rfl | rfl | rfl
  · exact ⟨[], [], by simp [hV, intervalParts], by simp, by simp [intervalParts]⟩
  · exact ⟨[], parts c', by simp [hV, intervalParts], by simp, by simp [intervalParts]⟩
  · exact ⟨parts c, [], by simp [hV, intervalParts], by simp, by simp [intervalParts]⟩

omit [DecidableEq P] in
theorem mem_intervalParts {c c' : Nat} {i : Nat × Nat} {p : P} (h : p ∈ intervalParts parts c c' i) : p ∈ parts c ∨ p ∈ parts c' := by
  unfold intervalParts at h
  split at h
  · exact List.mem_append.1 h
  · split at h
    · exact .inl h
    · exact .inr h

/-- Nothing happens to the particles of an empty set. -/
theorem bothCalls_nil_left (n3 : Bool) (B : List P) : bothCalls n3 [] B = [] := by
  unfold bothCalls
  rw [soaPair_pairs, soaPair_pairs]
  cases n3 <;> simp

theorem bothCalls_nil_right (n3 : Bool) (A : List P) : bothCalls n3 A [] = [] := by
  unfold bothCalls
  rw [soaPair_pairs, soaPair_pairs]
  cases n3 <;> simp

theorem soaSingle_nil (n3 : Bool) : soaSingle n3 ([] : List P) = [] := by simp [soaSingle, pairLoop]

/-- An entry of the table for column `k`. -/
structure EntryOk (dx A k : Nat) (e : Nat × Nat × Nat) : Prop where
  interval : IntervalOk e.2
  first : (e.1 = 0 ∧ e.2 = (0, 2)) ∨ (e.1 = 1 ∧ k = 0 ∧ e.2 = (1, 2)) ∨ A ≤ e.1

theorem entry_holds (hp : OwnCells parts) (hsize : ∀ c, size c = (parts c).length) {dx A b cur slice k : Nat} (hdx : 2 ≤ dx)
    (hA : dx + 2 ≤ A) (hcur : cur < 2) (hk : (slice = cur ∧ k = 0) ∨ (slice = 1 - cur ∧ k = 1)) {m : P → M} {st : C04State P M}
    (H : Holding parts (colsAt dx b cur) m st) (hc : st.current = cur) {e : Nat × Nat × Nat} (he : EntryOk dx A k e) (F : P → P → M) (n3 : Bool) :
    Holding parts (colsAt dx b cur) (fun p => m p + accumulated F (entryCalls parts dx n3 b k e) p)
      (C04State.entry F n3 size (c04One dx A) b slice st e) ∧
    (C04State.entry F n3 size (c04One dx A) b slice st e).current = cur := by
  have hsep := separate_heldIn hp (twoSlots_colsAt (b := b) hdx hcur)
  have hcols : colsAt dx b cur cur = [b, b + dx] := by simp [colsAt]
  have hother : colsAt dx b cur (1 - cur) = [b + 1, b + (dx + 1)] := by
    unfold colsAt; rw [if_neg (by omega), if_pos rfl]
  have hslice : colsAt dx b cur slice = [b + k, b + (dx + k)] := by
    rcases hk with ⟨rfl, rfl⟩ | ⟨rfl, rfl⟩
    · exact hcols
    · exact hother
  have hview := shows_interval H hslice he.interval
  have hoff := offsets_two H hcols
  have hnone : ∀ c, c ≠ b → c ≠ b + dx → c ≠ b + 1 → c ≠ b + (dx + 1) → c ∉ colsAt dx b cur 0 ∧ c ∉ colsAt dx b cur 1 := by
    intro c h1 h2 h3 h4
    rcases (show cur = 0 ∨ cur = 1 by omega) with rfl | rfl <;> simp [colsAt, h1, h2, h3, h4]
  -- a call with two views keeps the rest of the state
  have fin : ∀ (v w : C04View) (X Y : List P) (st' : C04State P M) (m' : P → M), Holding parts (colsAt dx b cur) m' st' → st'.current = cur →
      Shows (heldIn parts (colsAt dx b cur)) v X → Shows (heldIn parts (colsAt dx b cur)) w Y → (∀ p ∈ X, p ∉ Y) →
      Holding parts (colsAt dx b cur) (fun p => m' p + accumulated F (bothCalls n3 X Y) p) (st'.both F n3 v w) ∧
      (st'.both F n3 v w).current = cur := by
    intro v w X Y st' m' H' hc' hv hw hd
    refine ⟨⟨holds_both hsep H'.mem hv hw hd F n3, ?_⟩, ?_⟩
    · rw [(both_offsets F n3 v w).1]; exact H'.offsets
    · rw [(both_offsets F n3 v w).2]; exact hc'
  have hskip : ∀ calls : List (PairCall P), calls = [] → Holding parts (colsAt dx b cur) (fun p => m p + accumulated F calls p) st := by
    rintro _ rfl
    simpa using H
  have hbase : Shows (heldIn parts (colsAt dx b cur)) ⟨.slot cur, 0, (parts b).length⟩ (parts b) := by
    have := shows_interval H hcols (i := (0, 1)) (.inr (.inl rfl))
    rw [hoff] at this
    simpa [intervalParts] using this
  unfold C04State.entry
  simp only [hc, hsize]
  rcases he.first with ⟨h0, hi⟩ | ⟨h1, hk0, hi⟩ | hbig
  · rw [if_pos h0]
    unfold entryCalls
    by_cases hb : (parts b).length = 0
    · rw [if_pos hb]
      have hb : parts b = [] := List.eq_nil_of_length_eq_zero hb
      refine ⟨hskip _ ?_, hc⟩
      rw [h0, Nat.add_zero, hb, soaSingle_nil, bothCalls_nil_left, bothCalls_nil_left]
      simp
    · rw [if_neg hb]
      rcases hk with ⟨rfl, rfl⟩ | ⟨rfl, rfl⟩
      · rw [if_pos rfl, if_pos ⟨h0, rfl⟩]
        have H1 : Holding parts (colsAt dx b slice) (fun p => m p + accumulated F (soaSingle n3 (parts b)) p)
            (st.single F n3 ⟨.slot slice, 0, (parts b).length⟩) := ⟨holds_single hsep H.mem hbase F n3, H.offsets⟩
        have hlen : (st.mem (.slot slice)).length = (parts b).length + (parts (b + dx)).length := by
          rw [H.mem _ _ (show heldIn parts (colsAt dx b slice) (.slot slice) = some (parts b ++ parts (b + dx)) by simp [heldIn, hcols])]
          simp
        have hrest : Shows (heldIn parts (colsAt dx b slice)) ⟨.slot slice, (parts b).length, (st.mem (.slot slice)).length⟩ (parts (b + dx)) := by
          have := shows_interval H hcols (i := (1, 2)) (.inr (.inr rfl))
          rw [hoff] at this
          rw [hlen]
          simpa [intervalParts] using this
        have := fin _ _ _ _ _ _ H1 hc hbase hrest (fun p h1 h2 => by have := hp.disjoint _ _ _ h1 h2; omega)
        simp only [accumulated_append, ← add_assoc]
        exact this
      · rw [if_neg (by omega), if_neg (by omega)]
        have := fin _ _ _ _ _ _ H hc hbase hview (fun p h1 h2 => by
          rcases mem_intervalParts h2 with h2 | h2 <;> (have := hp.disjoint _ _ _ h1 h2; omega))
        rw [h0, Nat.add_zero]
        exact this
  · subst hk0
    have hsl : slice = cur := by
      rcases hk with ⟨h, -⟩ | ⟨-, h⟩
      · exact h
      · cases h
    subst hsl
    have hidx : (slice + (c04One dx A).base.length - 1) % (c04One dx A).base.length = 1 - slice := by
      simp only [c04One, List.length_cons, List.length_nil]
      omega
    have hoff' := offsets_two H hother
    rw [if_neg (by omega), if_neg (by simp only [c04One, List.headD_cons, List.getLastD_cons, List.getLastD_nil]; omega),
      if_pos (by simp [c04One, h1]), hidx, hoff']
    have hne : entryCalls parts dx n3 b 0 e = bothCalls n3 (parts (b + 1)) (intervalParts parts (b + 0) (b + (dx + 0)) e.2) := by
      unfold entryCalls
      rw [if_neg (by omega), h1]
    rw [hne]
    by_cases hb : (parts (b + 1)).length = 0
    · rw [if_pos (by simpa using hb)]
      exact ⟨hskip _ (by rw [List.eq_nil_of_length_eq_zero hb, bothCalls_nil_left]), hc⟩
    · rw [if_neg (by simpa using hb)]
      have hfirst : Shows (heldIn parts (colsAt dx b slice)) ⟨.slot (1 - slice), 0,
          [0, (parts (b + 1)).length, (parts (b + 1)).length + (parts (b + (dx + 1))).length].getD 1 0⟩ (parts (b + 1)) := by
        have := shows_interval H hother (i := (0, 1)) (.inr (.inl rfl))
        rw [hoff'] at this
        simpa [intervalParts] using this
      exact fin _ _ _ _ _ _ H hc hfirst hview (fun p h1 h2 => by
        rcases mem_intervalParts h2 with h2 | h2 <;> (have := hp.disjoint _ _ _ h1 h2; omega))
  · rw [if_neg (by omega), if_neg (by simp only [c04One, List.headD_cons, List.getLastD_cons, List.getLastD_nil]; omega),
      if_neg (by simp [c04One]; omega)]
    have hfree := hnone (b + e.1) (by omega) (by omega) (by omega) (by omega)
    have hcell : Shows (heldIn parts (colsAt dx b cur)) ⟨.cell (b + e.1), 0, (st.mem (.cell (b + e.1))).length⟩ (parts (b + e.1)) := by
      refine ⟨[], [], ?_, rfl, ?_⟩
      · simp only [heldIn, List.nil_append, List.append_nil]
        rw [if_neg]
        rintro ⟨h | h, -⟩
        · exact hfree.1 h
        · exact hfree.2 h
      · rw [holding_cell H hfree.1 hfree.2]; simp
    have hne : entryCalls parts dx n3 b k e = bothCalls n3 (parts (b + e.1)) (intervalParts parts (b + k) (b + (dx + k)) e.2) := by
      unfold entryCalls
      rw [if_neg (by omega)]
    rw [hne]
    exact fin _ _ _ _ _ _ H hc hcell hview (fun p h1 h2 => by
      rcases mem_intervalParts h2 with h2 | h2 <;> (have := hp.disjoint _ _ _ h1 h2; omega))

end

end Verif
