import Verif.Lemmas.SoA
/-! Lemmas for C131: loading and extracting. -/
namespace Verif

variable {V : Type}

/-- `vs` written over `l` from position `i` on. -/
def splice (l : List V) (i : Nat) (vs : List V) : List V := l.take i ++ vs ++ l.drop (i + vs.length)

theorem splice_nil (l : List V) (i : Nat) : splice l i [] = l := by simp [splice]

theorem splice_length {l : List V} {i : Nat} {vs : List V} (h : i + vs.length ≤ l.length) : (splice l i vs).length = l.length := by
  simp [splice]; omega

theorem splice_set {l : List V} {i : Nat} {v : V} {vs : List V} (h : i < l.length) : splice (l.set i v) (i + 1) vs = splice l i (v :: vs) := by
  unfold splice
  have h1 : (l.set i v).take (i + 1) = l.take i ++ [v] := by
    rw [List.take_set, List.take_succ_eq_append_getElem h, List.set_append_right _ _ (by simp)]
    simp [Nat.min_eq_left (Nat.le_of_lt h)]
  rw [h1, List.drop_set_of_lt (by omega)]
  simp [Nat.add_assoc, Nat.add_comm 1]

theorem loadParticle_eq : ∀ (needed : List Nat) (s : SoAArrays V) (i : Nat) (p : AttrParticle V), (∀ a ∈ needed, i < (s.col a).length) →
    s.loadParticle needed i p = .ok { s with col := fun b => if b ∈ needed then (s.col b).set i (p b) else s.col b } := by
  intro needed
  induction needed with
  | nil => intro s i p _; simp [SoAArrays.loadParticle]
  | cons a l ih =>
    intro s i p h
    have h1 : (Outcome.ok s).bind (fun s' => s'.poke i a (p a)) = .ok { s with col := fun b => if b = a then (s.col b).set i (p a) else s.col b } := by
      simp only [Outcome.bind, SoAArrays.poke]; rw [if_pos (h a List.mem_cons_self)]
    have h2 := ih { s with col := fun b => if b = a then (s.col b).set i (p a) else s.col b } i p (by
      intro b hb
      have := h b (List.mem_cons_of_mem _ hb)
      by_cases hba : b = a <;> simp [hba]
      · subst hba; exact this
      · exact this)
    unfold SoAArrays.loadParticle at h2 ⊢
    rw [List.foldl_cons, h1, h2]
    congr 1
    refine SoAArrays.ext (by rfl) fun b => ?_
    by_cases hb : b = a
    · subst hb; by_cases hl : b ∈ l <;> simp [hl]
    · simp [hb]

theorem loadLoop_eq (needed : List Nat) : ∀ (ps : List (AttrParticle V)) (i : Nat) (s : SoAArrays V), (∀ a ∈ needed, i + ps.length ≤ (s.col a).length) →
    SoAArrays.loadLoop needed ps i s = .ok { s with col := fun b => if b ∈ needed then splice (s.col b) i (ps.map fun p => p b) else s.col b } := by
  intro ps
  induction ps with
  | nil => intro i s _; simp [SoAArrays.loadLoop, splice_nil]
  | cons p ps ih =>
    intro i s h
    have hi : ∀ a ∈ needed, i < (s.col a).length := fun a ha => by have := h a ha; simp at this; omega
    unfold SoAArrays.loadLoop
    rw [loadParticle_eq needed s i p hi]
    simp only [Outcome.bind]
    rw [ih]
    · congr 1
      refine SoAArrays.ext (by rfl) fun b => ?_
      by_cases hb : b ∈ needed
      · simp only [hb, if_true, List.map_cons]; rw [splice_set (hi b hb)]
      · simp [hb]
    · intro a ha
      have := h a ha
      simp only [ha, if_true, List.length_set]
      simp at this; omega

theorem soaLoader_skip [Zero V] {needed : List Nat} {cell : List (AttrParticle V)} {s : SoAArrays V} {offset : Nat}
    (h : ∀ a ∈ needed, offset + cell.length ≤ (s.col a).length) :
    soaLoader needed cell s offset true = .ok { s with col := fun b => if b ∈ needed then splice (s.col b) offset (cell.map fun p => p b) else s.col b } := by
  unfold soaLoader
  simp only [if_true]
  cases cell with
  | nil => simp [splice_nil]
  | cons p ps => simp only [List.isEmpty_cons, Bool.false_eq_true, if_false]; exact loadLoop_eq needed _ _ _ h

theorem vecResize_length [Zero V] (l : List V) (n : Nat) : (vecResize l n).length = n := by
  simp [vecResize]; omega

theorem soaLoader_resize [Zero V] {needed : List Nat} {cell : List (AttrParticle V)} {s : SoAArrays V} {offset : Nat} :
    soaLoader needed cell s offset false = soaLoader needed cell (s.resize (offset + cell.length)) offset true := by
  simp [soaLoader]

/-! ### Offsets -/

theorem intSum_mod (n : Nat) : intSum n % 2 ^ 32 = n % 2 ^ 32 := by
  unfold intSum; simp only; split <;> omega

theorem intSum_congr {m n : Nat} (h : m % 2 ^ 32 = n % 2 ^ 32) : intSum m = intSum n := by
  unfold intSum; rw [h]

theorem intSum_small {n : Nat} (h : n < 2 ^ 31) : intSum n = n := by
  unfold intSum; simp only; rw [Nat.mod_eq_of_lt (by omega), if_pos h]

theorem offsets_last : ∀ (ns : List Nat) (acc d x : Nat), intSum x = acc → (soaOffsetsFrom acc ns).getLastD d = intSum (x + ns.sum) := by
  intro ns
  induction ns with
  | nil => intro acc d x h; simp [soaOffsetsFrom, h]
  | cons n ns ih =>
    intro acc d x h
    unfold soaOffsetsFrom
    have hx : intSum ((acc + n) % 2 ^ 64) = intSum (x + n) := by
      apply intSum_congr
      have := intSum_mod x
      rw [h] at this
      omega
    have h2 := ih (intSum ((acc + n) % 2 ^ 64)) acc (x + n) hx.symm
    rw [List.getLastD_cons, h2, List.sum_cons]
    congr 1; omega

theorem offsets_getD : ∀ (ns : List Nat) (acc i : Nat), acc + ns.sum < 2 ^ 31 → i ≤ ns.length → (soaOffsetsFrom acc ns).getD i 0 = acc + (ns.take i).sum := by
  intro ns
  induction ns with
  | nil => intro acc i _ hi; simp at hi; subst hi; simp [soaOffsetsFrom]
  | cons n ns ih =>
    intro acc i h hi
    rw [List.sum_cons] at h
    unfold soaOffsetsFrom
    have hx : intSum ((acc + n) % 2 ^ 64) = acc + n := by rw [Nat.mod_eq_of_lt (by omega)]; exact intSum_small (by omega)
    rw [hx]
    cases i with
    | zero => simp
    | succ i =>
      rw [List.getD_cons_succ, ih _ _ (by omega) (by simpa using hi), List.take_succ_cons, List.sum_cons]
      omega

/-! ### Blocks -/

theorem splice_flatten : ∀ (B : List (List V)) (i : Nat) (vs : List V) (h : i < B.length), vs.length = B[i].length →
    splice B.flatten ((B.map List.length).take i).sum vs = (B.set i vs).flatten := by
  intro B
  induction B with
  | nil => intro i vs h; simp at h
  | cons b B ih =>
    intro i vs h hl
    cases i with
    | zero =>
      simp at hl
      simp [splice, hl]
    | succ i =>
      simp only [List.length_cons, Nat.add_lt_add_iff_right] at h
      have := ih i vs h (by simpa using hl)
      simp only [List.flatten_cons, List.map_cons, List.take_succ_cons, List.sum_cons, List.set_cons_succ]
      rw [← this]
      unfold splice
      rw [List.take_length_add_append, Nat.add_assoc, List.drop_length_add_append]
      simp

theorem split_blocks : ∀ (ns : List Nat) (l : List V), l.length = ns.sum → ∃ B : List (List V), B.flatten = l ∧ B.map List.length = ns := by
  intro ns
  induction ns with
  | nil => intro l h; exact ⟨[], by simp at h; simp [h], rfl⟩
  | cons n ns ih =>
    intro l h
    rw [List.sum_cons] at h
    obtain ⟨B, h1, h2⟩ := ih (l.drop n) (by simp; omega)
    exact ⟨l.take n :: B, by simp [h1], by simp [h2]; omega⟩

theorem foldl_set_getElem? (f : Nat → List V) : ∀ (order : List Nat) (B : List (List V)) (i : Nat), i < B.length →
    (order.foldl (fun B j => B.set j (f j)) B)[i]? = if i ∈ order then some (f i) else B[i]? := by
  intro order
  induction order with
  | nil => intro B i _; simp
  | cons j order ih =>
    intro B i hi
    rw [List.foldl_cons, ih _ _ (by simpa using hi)]
    by_cases h : i ∈ order
    · simp [h]
    · by_cases hj : i = j
      · subst hj; simp [h, hi]
      · simp [h, hj, List.getElem?_set_ne (Ne.symm hj)]

theorem foldl_set_length (f : Nat → List V) : ∀ (order : List Nat) (B : List (List V)), (order.foldl (fun B j => B.set j (f j)) B).length = B.length := by
  intro order
  induction order with
  | nil => intro B; rfl
  | cons j order ih => intro B; rw [List.foldl_cons, ih]; simp

theorem loadCells_blocks [Zero V] (needed : List Nat) (cells : List (List (AttrParticle V))) (htot : (cells.map List.length).sum < 2 ^ 31) :
    ∀ (order : List Nat), (∀ i ∈ order, i < cells.length) → ∀ (s : SoAArrays V) (B : Nat → List (List V)), (∀ a, s.col a = (B a).flatten) →
      (∀ a, (B a).map List.length = cells.map List.length) →
      order.foldl (fun (r : Outcome (SoAArrays V)) i => r.bind fun s' => soaLoader needed (cells.getD i []) s' ((soaCellOffsets cells).getD i 0) true) (.ok s) =
        .ok { s with col := fun a => if a ∈ needed then (order.foldl (fun B j => B.set j ((cells.getD j []).map fun p => p a)) (B a)).flatten else s.col a } := by
  intro order
  induction order with
  | nil =>
    intro _ s B hc _
    simp only [List.foldl_nil]
    congr 1
    refine SoAArrays.ext rfl fun a => ?_
    by_cases h : a ∈ needed <;> simp [h, hc]
  | cons i order ih =>
    intro hi s B hc hB
    have hil : i < cells.length := hi i List.mem_cons_self
    rw [List.foldl_cons]
    have hoff : (soaCellOffsets cells).getD i 0 = ((cells.map List.length).take i).sum := by
      unfold soaCellOffsets; rw [offsets_getD _ _ _ (by omega) (by simp; omega)]; omega
    have hget : cells.getD i [] = cells[i] := by simp [List.getD, List.getElem?_eq_getElem hil]
    have hBl : ∀ a, (B a).length = cells.length := fun a => by have := congrArg List.length (hB a); simpa using this
    have hBi : ∀ a, ((B a)[i]'(by rw [hBl]; exact hil)).length = cells[i].length := fun a => by
      have h1 : ((B a).map List.length)[i]'(by simp [hBl, hil]) = (cells.map List.length)[i]'(by simp [hil]) := by simp only [hB]
      simpa using h1
    have hspl : ∀ a, splice (s.col a) ((soaCellOffsets cells).getD i 0) ((cells.getD i []).map fun p => p a) =
        ((B a).set i ((cells.getD i []).map fun p => p a)).flatten := fun a => by
      rw [hc, hoff, ← hB a, splice_flatten _ _ _ (by rw [hBl]; exact hil)]
      rw [hget, List.length_map, hBi]
    have hcap : ∀ a ∈ needed, (soaCellOffsets cells).getD i 0 + (cells.getD i []).length ≤ (s.col a).length := fun a _ => by
      rw [hc, List.length_flatten, hB, hoff, hget]
      have h1 : (cells.map List.length).take (i + 1) = (cells.map List.length).take i ++ [cells[i].length] := by
        rw [List.take_succ_eq_append_getElem (by simp [hil])]; simp
      have h2 := List.take_append_drop (i + 1) (cells.map List.length)
      have h3 := congrArg List.sum h2
      rw [List.sum_append, h1, List.sum_append] at h3
      simp at h3
      simp
      omega
    have h1 : (Outcome.ok s).bind (fun s' => soaLoader needed (cells.getD i []) s' ((soaCellOffsets cells).getD i 0) true) =
        .ok { s with col := fun a => if a ∈ needed then ((B a).set i ((cells.getD i []).map fun p => p a)).flatten else s.col a } := by
      simp only [Outcome.bind]
      rw [soaLoader_skip hcap]
      congr 1
      refine SoAArrays.ext (by rfl) fun a => ?_
      by_cases h : a ∈ needed
      · simp only [h, if_true]; exact hspl a
      · simp [h]
    rw [h1, ih (fun j hj => hi j (List.mem_cons_of_mem _ hj)) _ (fun a => if a ∈ needed then (B a).set i ((cells.getD i []).map fun p => p a) else B a)]
    · congr 1
      refine SoAArrays.ext (by rfl) fun a => ?_
      by_cases h : a ∈ needed <;> simp [h]
    · intro a
      by_cases h : a ∈ needed <;> simp [h, hc]
    · intro a
      by_cases h : a ∈ needed
      · simp only [h, if_true, List.map_set, hB]
        apply List.ext_getElem
        · simp
        · intro k h1 h2
          simp only [List.getElem_set]
          split
          · rename_i hk; subst hk; rw [List.length_map, hget]; simp
          · rfl
      · simp [h, hB]

theorem loadCells_eq [Zero V] (needed : List Nat) (cells : List (List (AttrParticle V))) (htot : (cells.map List.length).sum < 2 ^ 31)
    {order : List Nat} (ho : order.Perm (List.range cells.length)) (s : SoAArrays V) :
    soaLoadCells needed cells order s = .ok { s with col := fun a => if a ∈ needed then cells.flatten.map (fun p => p a) else vecResize (s.col a) (cells.map List.length).sum } := by
  have hlast : (soaCellOffsets cells).getLastD 0 = (cells.map List.length).sum := by
    unfold soaCellOffsets
    rw [offsets_last _ 0 0 0 (intSum_small (by norm_num)), Nat.zero_add, intSum_small htot]
  unfold soaLoadCells
  simp only [hlast]
  rw [if_neg (by omega)]
  have hex : ∀ a, ∃ B : List (List V), B.flatten = (s.resize (cells.map List.length).sum).col a ∧ B.map List.length = cells.map List.length :=
    fun a => split_blocks _ _ (by simp only [SoAArrays.resize]; rw [vecResize_length])
  choose B hB1 hB2 using hex
  rw [loadCells_blocks needed cells htot order (fun i hi => by simpa using ho.mem_iff.1 hi) _ B (fun a => (hB1 a).symm) hB2]
  congr 1
  refine SoAArrays.ext (by rfl) fun a => ?_
  by_cases h : a ∈ needed
  · simp only [h, if_true]
    have hlen : (B a).length = cells.length := by have := congrArg List.length (hB2 a); simpa using this
    have : order.foldl (fun B j => B.set j ((cells.getD j []).map fun p => p a)) (B a) = cells.map fun c => c.map fun p => p a := by
      apply List.ext_getElem?
      intro i
      by_cases hi : i < cells.length
      · rw [foldl_set_getElem? (fun j => (cells.getD j []).map fun p => p a) order (B a) i (by omega)]
        have : i ∈ order := ho.mem_iff.2 (List.mem_range.2 hi)
        simp [this, List.getD, List.getElem?_eq_getElem hi]
      · rw [List.getElem?_eq_none (by rw [foldl_set_length (fun j => (cells.getD j []).map fun p => p a), hlen]; omega),
          List.getElem?_eq_none (by simp; omega)]
    rw [this, ← List.map_flatten]
  · simp [h, SoAArrays.resize]

/-! ### Extracting -/

theorem extractParticle_eq [Zero V] (s : SoAArrays V) (i : Nat) : ∀ (computed : List Nat) (p : AttrParticle V), (∀ a ∈ computed, i < (s.col a).length) →
    s.extractParticle computed i p = .ok fun b => if b ∈ computed then (s.col b).getD i 0 else p b := by
  intro computed
  induction computed with
  | nil => intro p _; simp [SoAArrays.extractParticle]
  | cons a l ih =>
    intro p h
    have ha := h a List.mem_cons_self
    have h2 := ih (fun b => if b = a then (s.col a).getD i 0 else p b) fun b hb => h b (List.mem_cons_of_mem _ hb)
    unfold SoAArrays.extractParticle at h2 ⊢
    rw [List.foldl_cons]
    have h1 : (Outcome.ok p).bind (s.extractAttr i a) =
        .ok (fun b => if b = a then (s.col a).getD i 0 else p b) := by
      simp [Outcome.bind, SoAArrays.extractAttr, List.getD, List.getElem?_eq_getElem ha]
    rw [h1, h2]
    congr 1
    funext b
    by_cases hb : b = a
    · subst hb; by_cases hl : b ∈ l <;> simp [hl]
    · simp [hb]

theorem soaExtractor_eq [Zero V] (s : SoAArrays V) (computed : List Nat) : ∀ (ps : List (AttrParticle V)) (i : Nat),
    (∀ a ∈ computed, i + ps.length ≤ (s.col a).length) →
    soaExtractor computed s ps i = .ok (ps.mapIdx fun k p b => if b ∈ computed then (s.col b).getD (i + k) 0 else p b) := by
  intro ps
  induction ps with
  | nil => intro i _; rfl
  | cons p ps ih =>
    intro i h
    unfold soaExtractor
    rw [extractParticle_eq s i computed p fun a ha => by have := h a ha; simp at this; omega]
    simp only [Outcome.bind]
    rw [ih (i + 1) fun a ha => by have := h a ha; simp at this; omega]
    simp [List.mapIdx_cons, Nat.add_assoc, Nat.add_comm 1]

theorem extractCells_eq [Zero V] (s : SoAArrays V) (computed : List Nat) : ∀ (cells : List (List (AttrParticle V))) (off : Nat),
    (∀ a ∈ computed, off + (cells.map List.length).sum ≤ (s.col a).length) →
    ∃ cells', soaExtractCells computed s cells off = .ok cells' ∧ cells'.map List.length = cells.map List.length ∧
      cells'.flatten = cells.flatten.mapIdx fun k p b => if b ∈ computed then (s.col b).getD (off + k) 0 else p b := by
  intro cells
  induction cells with
  | nil => intro off _; exact ⟨[], rfl, rfl, rfl⟩
  | cons c cs ih =>
    intro off h
    have h' : ∀ a ∈ computed, off + c.length + (cs.map List.length).sum ≤ (s.col a).length := fun a ha => by
      have := h a ha; simp at this; simp; omega
    obtain ⟨cs', e1, e2, e3⟩ := ih (off + c.length) h'
    refine ⟨c.mapIdx (fun k p b => if b ∈ computed then (s.col b).getD (off + k) 0 else p b) :: cs', ?_, by simp [e2], ?_⟩
    · unfold soaExtractCells
      rw [soaExtractor_eq s computed c off fun a ha => by have := h' a ha; omega]
      simp only [Outcome.bind]
      rw [e1]
    · rw [List.flatten_cons, List.flatten_cons, e3, List.mapIdx_append]
      congr 2
      funext k p b
      rw [Nat.add_comm k, Nat.add_assoc]

end Verif
