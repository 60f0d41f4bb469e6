import Verif.Spec.SoA
import Mathlib.Data.List.Basic
import Mathlib.Tactic.Ring
/-! Lemmas for C131. -/
namespace Verif

variable {V : Type}

theorem SoAArrays.ext {s t : SoAArrays V} (hw : s.width = t.width) (hc : ∀ a, s.col a = t.col a) : s = t := by
  cases s; cases t; simp only [SoAArrays.mk.injEq]; exact ⟨hw, funext hc⟩

/-! ### Size -/

theorem foldl_max_const (f : Nat → Nat) (n : Nat) : ∀ (l : List Nat) (m : Nat), (∀ a ∈ l, f a = n) → l.foldl (fun m a => max m (f a)) m = if l = [] then m else max m n := by
  intro l
  induction l with
  | nil => intro m _; simp
  | cons a l ih =>
    intro m h
    rw [List.foldl_cons, ih _ fun b hb => h b (List.mem_cons_of_mem _ hb), h a List.mem_cons_self]
    by_cases hl : l = [] <;> simp [hl]

theorem size_of_lengths {s : SoAArrays V} (hw : 0 < s.width) {n : Nat} (h : ∀ a < s.width, (s.col a).length = n) : s.size = n := by
  unfold SoAArrays.size
  rw [foldl_max_const (fun a => (s.col a).length) n _ _ fun a ha => h a (List.mem_range.1 ha)]
  have : List.range s.width ≠ [] := by simp; omega
  simp [this]

theorem HoldsRows.length {s : SoAArrays V} {rows : List (AttrParticle V)} (h : HoldsRows s rows) : ∀ a < s.width, (s.col a).length = rows.length := by
  intro a ha; rw [h a ha, List.length_map]

theorem HoldsRows.size {s : SoAArrays V} {rows : List (AttrParticle V)} (hw : 0 < s.width) (h : HoldsRows s rows) : s.size = rows.length :=
  size_of_lengths hw h.length

theorem holds_ofRows (w : Nat) (rows : List (AttrParticle V)) : HoldsRows (SoAArrays.ofRows w rows) rows := fun _ _ => rfl

theorem size_ofRows {w : Nat} (hw : 0 < w) (rows : List (AttrParticle V)) : (SoAArrays.ofRows w rows).size = rows.length :=
  (holds_ofRows w rows).size hw

/-! ### Operations -/

theorem vecResize_map [Zero V] (rows : List (AttrParticle V)) (a n : Nat) :
    vecResize (rows.map fun r => r a) n = (rows.take n ++ List.replicate (n - rows.length) (fun _ => 0 : AttrParticle V)).map fun r => r a := by
  unfold vecResize; simp [List.map_take]

theorem setAttrs_cons (r : AttrParticle V) (a : Nat) (v : V) (l : List (Nat × V)) :
    setAttrs r ((a, v) :: l) = setAttrs (fun b => if b = a then v else r b) l := rfl

theorem write_run : ∀ {values : List (Nat × V)} {s : SoAArrays V} {rows : List (AttrParticle V)} {i : Nat}, HoldsRows s rows → (∀ av ∈ values, av.1 < s.width) →
    SameOutcome s.width (s.writeMultiple i values)
      (if i < rows.length then .ok (rows.modify i fun r => setAttrs r values) else if values.isEmpty then .ok rows else .throws) := by
  intro values
  induction values with
  | nil =>
    intro s rows i hs _
    have : (if i < rows.length then Outcome.ok (rows.modify i fun r => setAttrs r []) else if ([] : List (Nat × V)).isEmpty then .ok rows else .throws) = .ok rows := by
      have h : (fun r : AttrParticle V => setAttrs r []) = id := rfl
      rw [h, List.modify_id]; simp
    rw [this]; exact ⟨rfl, hs⟩
  | cons av l ih =>
    intro s rows i hs hv
    obtain ⟨a, v⟩ := av
    have ha : a < s.width := hv _ List.mem_cons_self
    unfold SoAArrays.writeMultiple SoAArrays.write
    rw [hs.length a ha]
    by_cases hi : i < rows.length
    · rw [if_pos hi, if_pos hi]
      simp only [Outcome.bind]
      have hs' : HoldsRows { s with col := fun b => if b = a then (s.col b).set i v else s.col b } (rows.modify i fun r b => if b = a then v else r b) := by
        intro b hb
        by_cases hba : b = a
        · subst hba
          simp only [if_true]
          rw [hs b hb]
          apply List.ext_getElem
          · simp
          · intro k h1 h2
            simp only [List.getElem_set, List.getElem_map, List.getElem_modify]
            split <;> simp
        · simp only [hba, if_false]
          rw [hs b hb]
          apply List.ext_getElem
          · simp
          · intro k h1 h2
            simp only [List.getElem_map, List.getElem_modify]
            split <;> simp [hba]
      have := ih (i := i) hs' (fun av hav => hv av (List.mem_cons_of_mem _ hav))
      rw [List.length_modify, if_pos hi] at this
      have hm : ((rows.modify i fun r b => if b = a then v else r b).modify i fun r => setAttrs r l) = rows.modify i fun r => setAttrs r ((a, v) :: l) := by
        apply List.ext_getElem
        · simp
        · intro k h1 h2
          simp only [List.getElem_modify]
          split <;> simp [setAttrs_cons]
      rw [hm] at this
      exact this
    · rw [if_neg hi, if_neg hi]
      simp [Outcome.bind, SameOutcome]

theorem foldl_appendSingle (o : SoAArrays V) : ∀ (attrs : List Nat) (s : SoAArrays V), attrs.Nodup →
    attrs.foldl (SoAArrays.appendSingle o) s = { s with col := fun b => if b ∈ attrs then s.col b ++ o.col b else s.col b } := by
  intro attrs
  induction attrs with
  | nil => intro s _; simp
  | cons a l ih =>
    intro s hn
    rw [List.foldl_cons, ih _ hn.of_cons]
    refine SoAArrays.ext (by rfl) fun b => ?_
    have : a ∉ l := (List.nodup_cons.1 hn).1
    by_cases hb : b = a
    · subst hb; simp [SoAArrays.appendSingle, this]
    · simp [SoAArrays.appendSingle, hb]

/-- With repetitions: the array of a named attribute starts with what was appended. -/
theorem foldl_appendSingle_prefix (o : SoAArrays V) : ∀ (attrs : List Nat) (s : SoAArrays V),
    (attrs.foldl (SoAArrays.appendSingle o) s).width = s.width ∧
    ∀ b, ∃ t, (attrs.foldl (SoAArrays.appendSingle o) s).col b = (if b ∈ attrs then s.col b ++ o.col b else s.col b) ++ t ∧ (b ∉ attrs → t = []) := by
  intro attrs
  induction attrs with
  | nil => intro s; exact ⟨rfl, fun b => ⟨[], by simp, fun _ => rfl⟩⟩
  | cons a l ih =>
    intro s
    rw [List.foldl_cons]
    obtain ⟨hw, hc⟩ := ih (SoAArrays.appendSingle o s a)
    refine ⟨hw, fun b => ?_⟩
    obtain ⟨t, ht, hn⟩ := hc b
    by_cases hb : b = a
    · subst hb
      by_cases hl : b ∈ l
      · exact ⟨o.col b ++ t, by rw [ht]; simp [SoAArrays.appendSingle, hl], fun h => absurd List.mem_cons_self h⟩
      · exact ⟨t, by rw [ht]; simp [SoAArrays.appendSingle, hl], fun _ => hn hl⟩
    · refine ⟨t, by rw [ht]; simp [SoAArrays.appendSingle, hb], fun h => hn fun hl => h (List.mem_cons_of_mem _ hl)⟩

theorem append_run {s : SoAArrays V} {rows more : List (AttrParticle V)} (hw : 0 < s.width) (hs : HoldsRows s rows) :
    SameOutcome s.width (.ok (s.append (.ofRows s.width more))) (.ok (rows ++ more)) := by
  unfold SoAArrays.append
  rw [size_ofRows hw]
  split
  · rw [foldl_appendSingle _ _ _ List.nodup_range]
    refine ⟨rfl, fun a ha => ?_⟩
    have ha' : a < s.width := ha
    simp [ha', SoAArrays.ofRows, hs a ha']
  · have : more = [] := List.length_eq_zero_iff.1 (by omega)
    rw [this, List.append_nil]; exact ⟨rfl, hs⟩

theorem appendSome_run [Zero V] {s : SoAArrays V} {rows more : List (AttrParticle V)} {attrs : List Nat} (hw : 0 < s.width) (hs : HoldsRows s rows) :
    SameOutcome s.width (.ok (s.appendSome attrs (.ofRows s.width more))) (.ok (rows ++ more.map fun r a => if a ∈ attrs then r a else 0)) := by
  unfold SoAArrays.appendSome
  rw [size_ofRows hw, hs.size hw]
  split
  · obtain ⟨h1, h2⟩ := foldl_appendSingle_prefix (SoAArrays.ofRows s.width more) attrs s
    refine ⟨h1, fun a ha => ?_⟩
    have ha' : a < s.width := by rw [← h1]; exact ha
    obtain ⟨t, ht, hn⟩ := h2 a
    simp only [SoAArrays.resize]
    rw [ht]
    unfold vecResize
    by_cases hm : a ∈ attrs
    · simp only [hm, if_true, hs a ha', SoAArrays.ofRows]
      rw [List.take_append_of_le_length (by simp), List.take_of_length_le (by simp)]
      have : rows.length + more.length - (List.map (fun r => r a) rows ++ List.map (fun r => r a) more ++ t).length = 0 := by simp
      rw [this]; simp [hm]
    · simp only [hm, if_false, hs a ha', hn hm]
      rw [List.append_nil, List.take_of_length_le (by simp)]
      simp [Function.comp_def, hm]
  · have : more = [] := List.length_eq_zero_iff.1 (by omega)
    rw [this, List.map_nil, List.append_nil]; exact ⟨rfl, hs⟩

theorem foldl_appendSlice {o : SoAArrays V} {start n : Nat} : ∀ (attrs : List Nat) (s : SoAArrays V), attrs.Nodup →
    (∀ a ∈ attrs, start + n ≤ (o.col a).length) →
    attrs.foldl (fun (r : Outcome (SoAArrays V)) a => r.bind fun s' => SoAArrays.appendSlice o start n s' a) (.ok s) =
      .ok { s with col := fun b => if b ∈ attrs then s.col b ++ ((o.col b).drop start).take n else s.col b } := by
  intro attrs
  induction attrs with
  | nil => intro s _ _; simp
  | cons a l ih =>
    intro s hn hle
    rw [List.foldl_cons]
    have h1 : (Outcome.ok s).bind (fun s' => SoAArrays.appendSlice o start n s' a) =
        .ok { s with col := fun b => if b = a then s.col b ++ ((o.col b).drop start).take n else s.col b } := by
      simp only [Outcome.bind, SoAArrays.appendSlice]; rw [if_pos (hle a List.mem_cons_self)]
    rw [h1, ih _ hn.of_cons fun b hb => hle b (List.mem_cons_of_mem _ hb)]
    congr 1
    refine SoAArrays.ext (by rfl) fun b => ?_
    have : a ∉ l := (List.nodup_cons.1 hn).1
    by_cases hb : b = a
    · subst hb; simp [this]
    · simp [hb]

theorem appendView_run {s : SoAArrays V} {rows more : List (AttrParticle V)} {start stop : Nat} (hw : 0 < s.width) (hs : HoldsRows s rows) :
    SameOutcome s.width (s.appendView (.ofRows s.width more) start stop)
      (if start ≤ stop ∧ stop ≤ more.length then .ok (rows ++ (more.drop start).take (stop - start)) else .throws) := by
  unfold SoAArrays.appendView
  rw [size_ofRows hw]
  by_cases h : start ≤ stop ∧ stop ≤ more.length
  · rw [if_pos h, if_pos ⟨h.2, h.1⟩]
    split
    · rw [foldl_appendSlice _ _ List.nodup_range (by intro a _; simp [SoAArrays.ofRows]; omega)]
      refine ⟨rfl, fun a ha => ?_⟩
      have ha' : a < s.width := ha
      simp [ha', SoAArrays.ofRows, hs a ha', List.map_take, List.map_drop]
    · have : stop - start = 0 := by omega
      rw [this, List.take_zero, List.append_nil]; exact ⟨rfl, hs⟩
  · rw [if_neg h, if_neg fun h' => h ⟨h'.2, h'.1⟩]; trivial

theorem swap_run {s : SoAArrays V} {rows : List (AttrParticle V)} {i j : Nat} (hw : 0 < s.width) (hs : HoldsRows s rows) :
    SameOutcome s.width (s.swap i j)
      (match rows[i]?, rows[j]? with
        | some x, some y => .ok ((rows.set i y).set j x)
        | _, _ => .ub) := by
  unfold SoAArrays.swap
  by_cases h : i < rows.length ∧ j < rows.length
  · rw [if_pos fun a ha => by rw [hs.length a ha]; exact h]
    rw [List.getElem?_eq_getElem h.1, List.getElem?_eq_getElem h.2]
    refine ⟨rfl, fun a ha => ?_⟩
    have ha' : a < s.width := ha
    simp [SoAArrays.vecSwap, hs a ha', List.getElem?_eq_getElem h.1, List.getElem?_eq_getElem h.2, List.map_set]
  · rw [if_neg fun h' => h (by have := h' 0 hw; rwa [hs.length 0 hw] at this)]
    rcases not_and_or.1 h with h | h
    · rw [List.getElem?_eq_none (by omega)]; trivial
    · rw [List.getElem?_eq_none (l := rows) (i := j) (by omega)]
      cases rows[i]? <;> trivial

theorem popBack_run {s : SoAArrays V} {rows : List (AttrParticle V)} (hw : 0 < s.width) (hs : HoldsRows s rows) :
    SameOutcome s.width s.popBack (if rows.isEmpty then .ub else .ok rows.dropLast) := by
  unfold SoAArrays.popBack
  by_cases h : rows = []
  · subst h
    rw [if_neg fun h' => by have := h' 0 hw; rw [hs.length 0 hw] at this; simp at this]
    trivial
  · have hl : 0 < rows.length := List.length_pos_iff.2 h
    rw [if_pos fun a ha => by rw [hs.length a ha]; exact hl, if_neg (by simpa using h)]
    refine ⟨rfl, fun a ha => ?_⟩
    have ha' : a < s.width := ha
    simp [hs a ha', List.dropLast_eq_take, List.map_take]

theorem op_run [Zero V] {s : SoAArrays V} {rows : List (AttrParticle V)} (hw : 0 < s.width) (hs : HoldsRows s rows) (op : SoAOp V) (hv : op.Valid s.width) :
    SameOutcome s.width (op.run s) (op.onRows rows) := by
  cases op with
  | resize n => exact ⟨rfl, fun a ha => by simp only [SoAArrays.resize]; rw [hs a ha, vecResize_map]⟩
  | write i values => exact write_run hs hv
  | append more => exact append_run hw hs
  | appendSome attrs more => exact appendSome_run hw hs
  | appendView more start stop => exact appendView_run hw hs
  | clear => exact ⟨rfl, fun _ _ => rfl⟩
  | swap i j => exact swap_run hw hs
  | popBack => exact popBack_run hw hs

theorem ops_run [Zero V] {w : Nat} (hw : 0 < w) : ∀ (ops : List (SoAOp V)) {s : SoAArrays V} {rows : List (AttrParticle V)}, s.width = w → HoldsRows s rows →
    (∀ op ∈ ops, op.Valid w) → SameOutcome w (runSoAOps s ops) (runRowOps rows ops) := by
  intro ops
  induction ops with
  | nil => intro s rows h hs _; exact ⟨h, hs⟩
  | cons op ops ih =>
    intro s rows h hs hv
    have h1 := op_run (by omega) hs op (by rw [h]; exact hv op List.mem_cons_self)
    rw [h] at h1
    unfold runSoAOps runRowOps
    revert h1
    cases op.run s <;> cases op.onRows rows <;> simp only [SameOutcome, Outcome.bind, imp_self, false_implies]
    rintro ⟨h2, h3⟩
    exact ih h2 h3 fun o ho => hv o (List.mem_cons_of_mem _ ho)

theorem readImpl_eq {s : SoAArrays V} {rows : List (AttrParticle V)} (hs : HoldsRows s rows) {i : Nat} (hi : i < rows.length) :
    ∀ {attrs : List Nat}, (∀ a ∈ attrs, a < s.width) → s.readImpl i attrs = .ok (attrs.map fun a => rows[i] a) := by
  intro attrs
  induction attrs with
  | nil => intro _; rfl
  | cons a l ih =>
    intro h
    unfold SoAArrays.readImpl SoAArrays.read
    rw [hs a (h a List.mem_cons_self)]
    simp [List.getElem?_eq_getElem hi, Outcome.bind, ih fun b hb => h b (List.mem_cons_of_mem _ hb)]

end Verif
