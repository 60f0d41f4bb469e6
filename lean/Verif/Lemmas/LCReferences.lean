import Verif.Spec.ReferencesHistory
import Verif.Lemmas.LCHistory
/-! The container `linkedCellsReferences`: pointers, sorting in, cleaning the cells. -/
namespace Verif
open Spec

variable {c : LHParams}

/-- The particle at an index (with a default that is never used). -/
def lrAt (arr : List Particle) (i : Nat) : Particle := arr.getD i ⟨0, ⟨0, 0, 0⟩, .dummy⟩

theorem lrAt_some {arr : List Particle} {i : Nat} (h : i < arr.length) : arr[i]? = some (lrAt arr i) := by
  unfold lrAt; rw [List.getD, List.getElem?_eq_getElem h]; rfl

theorem lrAt_of {arr : List Particle} {i : Nat} {p : Particle} (h : arr[i]? = some p) : lrAt arr i = p := by
  unfold lrAt; rw [List.getD, h]; rfl

theorem lrAt_range (arr : List Particle) : (List.range arr.length).map (lrAt arr) = arr := by
  apply List.ext_getElem?
  intro i
  by_cases h : i < arr.length
  · rw [List.getElem?_map, List.getElem?_range h, lrAt_some h]; rfl
  · rw [List.getElem?_eq_none (by simpa using h), List.getElem?_eq_none (by omega)]

theorem lrAt_set {arr : List Particle} {i j : Nat} {p : Particle} (h : i < arr.length) :
    lrAt (arr.set i p) j = if j = i then p else lrAt arr j := by
  unfold lrAt
  by_cases hj : j = i
  · subst hj; rw [if_pos rfl, List.getD, List.getElem?_set_self h]; rfl
  · rw [if_neg hj, List.getD, List.getElem?_set_ne (Ne.symm hj), ← List.getD]

theorem lrAt_append_lt {arr l : List Particle} {i : Nat} (h : i < arr.length) : lrAt (arr ++ l) i = lrAt arr i := by
  unfold lrAt; rw [List.getD, List.getElem?_append_left h, ← List.getD]

theorem lrAt_append_self {arr : List Particle} {p : Particle} : lrAt (arr ++ [p]) arr.length = p := by
  unfold lrAt; rw [List.getD, List.getElem?_append_right (le_refl _)]; simp

/-- The pointers of a list are good. -/
def LRGood (gen n : Nat) (l : List LRPtr) : Prop := ∀ q ∈ l, q.gen = gen ∧ q.idx < n

/-- What a list of good pointers shows. -/
def lrLook (arr : List Particle) (l : List LRPtr) : List Particle := l.map fun q => lrAt arr q.idx

theorem viewCell_eq {st : LRState} {l : List LRPtr} (h : LRGood st.gen st.arr.length l) : st.viewCell l = some (lrLook st.arr l) := by
  unfold LRState.viewCell lrLook
  induction l with
  | nil => rfl
  | cons q l ih =>
    have hq := h q (List.mem_cons_self ..)
    have hd : st.deref q = some (lrAt st.arr q.idx) := by
      unfold LRState.deref; rw [if_pos hq.1]; exact lrAt_some hq.2
    rw [List.mapM_cons, hd, ih fun x hx => h x (List.mem_cons_of_mem _ hx)]
    rfl

/-- What the cells show. -/
def LRState.look (st : LRState) : List (List Particle) := st.cells.map (lrLook st.arr)

/-- The structural invariant: the vector is clean, no dangling pointers, no two pointers to the same particle, and everything that
is not a dummy is pointed to. -/
structure LRInv (c : LHParams) (st : LRState) : Prop where
  clean : st.dirty = false
  index : st.dirtyIndex = st.arr.length
  fit : st.arr.length ≤ st.cap
  len : st.cells.length = c.block.numCells
  good : ∀ l ∈ st.cells, LRGood st.gen st.arr.length l
  nodup : (st.cells.flatten.map LRPtr.idx).Nodup
  cover : ∀ i, i < st.arr.length → (lrAt st.arr i).own ≠ .dummy → i ∈ st.cells.flatten.map LRPtr.idx

theorem LRInv.goodAt {st : LRState} (h : LRInv c st) (k : Nat) : LRGood st.gen st.arr.length (st.cells.getD k []) := by
  by_cases hk : k < st.cells.length
  · exact h.good _ (by rw [List.getD, List.getElem?_eq_getElem hk]; exact List.getElem_mem hk)
  · rw [List.getD, List.getElem?_eq_none (by omega)]; intro q hq; cases hq

theorem view_of_good {st : LRState} (h : ∀ l ∈ st.cells, LRGood st.gen st.arr.length l) : st.view = some st.look := by
  unfold LRState.view LRState.look
  generalize hc : st.cells = cs
  rw [hc] at h
  clear hc
  induction cs with
  | nil => rfl
  | cons l cs ih =>
    rw [List.mapM_cons, viewCell_eq (h l (List.mem_cons_self ..)), ih fun x hx => h x (List.mem_cons_of_mem _ hx)]
    rfl

theorem LRInv.view {st : LRState} (h : LRInv c st) : st.view = some st.look := view_of_good h.good

theorem look_getD (st : LRState) (k : Nat) : st.look.getD k [] = lrLook st.arr (st.cells.getD k []) := by
  unfold LRState.look
  rw [List.getD, List.getElem?_map, List.getD]
  cases st.cells[k]? <;> rfl

theorem look_flatten (st : LRState) : st.look.flatten = (st.cells.flatten.map LRPtr.idx).map (lrAt st.arr) := by
  unfold LRState.look lrLook
  rw [List.map_map, List.map_flatten]; rfl

theorem LRInv.bound {st : LRState} (h : LRInv c st) : ∀ i ∈ st.cells.flatten.map LRPtr.idx, i < st.arr.length := by
  intro i hi
  obtain ⟨q, hq, rfl⟩ := List.mem_map.1 hi
  obtain ⟨l, hl, hq⟩ := List.mem_flatten.1 hq
  exact (h.good l hl q hq).2

/-- The particles in the vector that are not dummies are the ones the cells show. -/
theorem live_perm {arr : List Particle} {is : List Nat} (hn : is.Nodup) (hb : ∀ i ∈ is, i < arr.length)
    (hc : ∀ i, i < arr.length → (lrAt arr i).own ≠ .dummy → i ∈ is) :
    ((is.map (lrAt arr)).filter fun p => decide (p.own ≠ .dummy)).Perm (arr.filter fun p => decide (p.own ≠ .dummy)) := by
  conv_rhs => rw [← lrAt_range arr]
  rw [List.filter_map, List.filter_map]
  apply List.Perm.map
  rw [List.perm_ext_iff_of_nodup (hn.filter _) (List.nodup_range.filter _)]
  intro i
  simp only [List.mem_filter, List.mem_range, Function.comp, decide_eq_true_eq]
  exact ⟨fun ⟨h1, h2⟩ => ⟨hb i h1, h2⟩, fun ⟨h1, h2⟩ => ⟨hc i h1 h2, h2⟩⟩

theorem LRInv.live {st : LRState} (h : LRInv c st) :
    (st.look.flatten.filter fun p => decide (p.own ≠ .dummy)).Perm (st.arr.filter fun p => decide (p.own ≠ .dummy)) := by
  rw [look_flatten]; exact live_perm h.nodup h.bound h.cover

theorem owned_of_live {a b : List Particle}
    (h : (a.filter fun p => decide (p.own ≠ .dummy)).Perm (b.filter fun p => decide (p.own ≠ .dummy))) :
    (a.filter isOwned).Perm (b.filter isOwned) := by
  have := h.filter isOwned
  rw [List.filter_filter, List.filter_filter] at this
  have e : (fun p : Particle => isOwned p && decide (p.own ≠ .dummy)) = isOwned := by
    funext p; unfold isOwned; cases p.own <;> rfl
  rwa [e] at this

theorem LRInv.owned {st : LRState} (h : LRInv c st) : (st.look.flatten.filter isOwned).Perm (st.arr.filter isOwned) :=
  owned_of_live h.live

theorem lrOwned_eq {st : LRState} (h : LRInv c st) : lrOwned st = some (st.look.flatten.filter isOwned) := by
  unfold lrOwned; rw [h.view]; rfl

/-! ### Sorting in -/

/-- The particle belongs into the cell of its position. -/
def LRFitting (c : LHParams) (p : Particle) : Prop := lrFits c.block (c.block.flatIndexOfPosition p.pos) p = true

theorem fitting_iff (h : LHParamsOk c) (p : Particle) :
    LRFitting c p ↔ (p.own = .owned ∧ inBoxB p.pos c.bMin c.bMax = true) ∨ (p.own = .halo ∧ inBoxB p.pos c.bMin c.bMax = false) := by
  unfold LRFitting lrFits
  rw [halo_iff_outside h]
  cases inBoxB p.pos c.bMin c.bMax <;> cases p.own <;> simp

theorem LRFitting.place (h : LHParamsOk c) (m : Nat) {p : Particle} (hp : LRFitting c p) :
    PlaceOk c m (c.block.flatIndexOfPosition p.pos) p := by
  have hf := halo_iff_outside h p.pos
  rcases (fitting_iff h p).1 hp with ⟨h1, h2⟩ | ⟨h1, h2⟩
  · exact ⟨fun _ => by rw [hf, h2]; rfl, fun hh => absurd (h1.symm.trans hh) (by decide), ⟨_, rfl, Displaced.refl h.skinPos m _⟩,
      fun hh => absurd (h1.symm.trans hh) (by decide)⟩
  · exact ⟨fun hh => absurd (h1.symm.trans hh) (by decide), fun _ => by rw [hf, h2]; rfl, ⟨_, rfl, Displaced.refl h.skinPos m _⟩,
      fun _ => h2⟩

/-- The indices of `is` that are sorted into cell `k`. -/
def sortedTo (b : CellBlock) (arr : List Particle) (is : List Nat) (k : Nat) : List Nat :=
  is.filter fun i => decide ((lrAt arr i).own ≠ .dummy) && decide (b.flatIndexOfPosition (lrAt arr i).pos = k)

theorem block_index_lt (h : LHParamsOk c) (p : V3 Rat) : c.block.flatIndexOfPosition p < c.block.numCells :=
  flatIndex_lt h.box (csf := c.csf) p

theorem lrSort_cases (h : LHParamsOk c) (gen : Nat) {arr : List Particle} (is : List Nat) (hi : ∀ i ∈ is, i < arr.length)
    {cells : List (List LRPtr)} (hl : cells.length = c.block.numCells) :
    ((∃ i ∈ is, (lrAt arr i).own ≠ .dummy ∧ ¬ LRFitting c (lrAt arr i)) ∧ lrSort c.block gen arr is cells = .throws) ∨
    ((∀ i ∈ is, (lrAt arr i).own ≠ .dummy → LRFitting c (lrAt arr i)) ∧ ∃ cells', lrSort c.block gen arr is cells = .ok cells' ∧
      cells'.length = c.block.numCells ∧
      ∀ k, cells'.getD k [] = cells.getD k [] ++ (sortedTo c.block arr is k).map (LRPtr.mk gen)) := by
  induction is generalizing cells with
  | nil => right; exact ⟨by simp, cells, rfl, hl, fun k => by simp [sortedTo]⟩
  | cons i is ih =>
    have hlt := hi i (List.mem_cons_self ..)
    have hrest : ∀ j ∈ is, j < arr.length := fun j hj => hi j (List.mem_cons_of_mem _ hj)
    have hs := lrAt_some hlt
    unfold lrSort lrSortOne
    simp only [hs]
    by_cases hd : (lrAt arr i).own = .dummy
    · rw [if_pos hd]
      show _ ∨ (_ ∧ ∃ cells', lrSort c.block gen arr is cells = _ ∧ _)
      rcases ih hrest hl with ⟨⟨j, hj, h1⟩, h2⟩ | ⟨h1, cells', h2, h3, h4⟩
      · left; exact ⟨⟨j, List.mem_cons_of_mem _ hj, h1⟩, h2⟩
      · right
        refine ⟨?_, cells', h2, h3, ?_⟩
        · intro j hj hnd
          rcases List.mem_cons.1 hj with rfl | hj
          · exact absurd hd hnd
          · exact h1 j hj hnd
        · intro k
          rw [h4 k]
          unfold sortedTo
          rw [List.filter_cons_of_neg (by simp [hd])]
    · rw [if_neg hd]
      by_cases hf : lrFits c.block (c.block.flatIndexOfPosition (lrAt arr i).pos) (lrAt arr i) = true
      · rw [if_pos hf]
        set k0 := c.block.flatIndexOfPosition (lrAt arr i).pos with hk0
        have hk0l : k0 < cells.length := by rw [hl]; exact block_index_lt h _
        show (_ ∧ lrSort c.block gen arr is _ = _) ∨ (_ ∧ ∃ cells', lrSort c.block gen arr is _ = _ ∧ _)
        rcases ih hrest (cells := cells.set k0 (cells.getD k0 [] ++ [⟨gen, i⟩])) (by simp [hl]) with ⟨⟨j, hj, h1⟩, h2⟩ | ⟨h1, cells', h2, h3, h4⟩
        · left; exact ⟨⟨j, List.mem_cons_of_mem _ hj, h1⟩, h2⟩
        · right
          refine ⟨?_, cells', h2, h3, ?_⟩
          · intro j hj hnd
            rcases List.mem_cons.1 hj with rfl | hj
            · exact hf
            · exact h1 j hj hnd
          · intro k
            rw [h4 k]
            by_cases hk : k = k0
            · subst hk
              rw [getD_set_self' hk0l, List.append_assoc]
              unfold sortedTo
              rw [List.filter_cons_of_pos (by simp [hd, hk0])]
              rfl
            · rw [getD_set_ne' (Ne.symm hk)]
              unfold sortedTo
              rw [List.filter_cons_of_neg (by simp only [Bool.and_eq_true, decide_eq_true_eq, not_and]; intro _ he; exact hk (he ▸ rfl))]
      · rw [if_neg hf]
        left
        exact ⟨⟨i, List.mem_cons_self .., hd, hf⟩, rfl⟩

/-- Sorting everything in from scratch. -/
theorem resort_spec (h : LHParamsOk c) {st : LRState} (hd : st.dirty = true) (hz : st.dirtyIndex = 0) (hfit : st.arr.length ≤ st.cap)
    (hl : st.cells.length = c.block.numCells) :
    ((∃ p ∈ st.arr, p.own ≠ .dummy ∧ ¬ LRFitting c p) ∧ st.updateDirty c = .throws) ∨
    ((∀ p ∈ st.arr, p.own ≠ .dummy → LRFitting c p) ∧ ∃ st', st.updateDirty c = .ok st' ∧ st'.arr = st.arr ∧ LRInv c st' ∧
      ∀ k, ∀ p ∈ st'.look.getD k [], p.own ≠ .dummy ∧ LRFitting c p ∧ c.block.flatIndexOfPosition p.pos = k) := by
  have hidx : ∀ i ∈ List.range' 0 (st.arr.length - 0), i < st.arr.length := by
    intro i hi; rw [List.mem_range'_1] at hi; omega
  unfold LRState.updateDirty
  rw [if_pos hd, hz]
  simp only [if_true]
  rcases lrSort_cases h st.gen (arr := st.arr) _ hidx (cells := st.cells.map fun _ => []) (by simp [hl]) with
    ⟨⟨i, hi, h1, h2⟩, h3⟩ | ⟨h1, cells', h2, h3, h4⟩
  · left
    rw [h3]
    exact ⟨⟨_, List.mem_of_getElem? (lrAt_some (hidx i hi)), h1, h2⟩, rfl⟩
  · right
    have hall : ∀ p ∈ st.arr, p.own ≠ .dummy → LRFitting c p := by
      intro p hp hnd
      obtain ⟨i, hi⟩ := List.getElem?_of_mem hp
      obtain ⟨hlt, -⟩ := List.getElem?_eq_some_iff.1 hi
      have he := lrAt_of hi
      have := h1 i (by rw [List.mem_range'_1]; omega) (by rw [he]; exact hnd)
      rwa [he] at this
    refine ⟨hall, ?_⟩
    rw [h2]
    have h4' : ∀ k, cells'.getD k [] = (sortedTo c.block st.arr (List.range' 0 (st.arr.length - 0)) k).map (LRPtr.mk st.gen) := by
      intro k
      rw [h4 k]
      have : (st.cells.map fun _ => ([] : List LRPtr)).getD k [] = [] := by
        rw [List.getD, List.getElem?_map]; cases st.cells[k]? <;> rfl
      rw [this, List.nil_append]
    have hmem : ∀ k q, q ∈ cells'.getD k [] → q.gen = st.gen ∧ q.idx < st.arr.length ∧ (lrAt st.arr q.idx).own ≠ .dummy ∧
        c.block.flatIndexOfPosition (lrAt st.arr q.idx).pos = k := by
      intro k q hq
      rw [h4' k, List.mem_map] at hq
      obtain ⟨i, hi, rfl⟩ := hq
      unfold sortedTo at hi
      rw [List.mem_filter, Bool.and_eq_true, decide_eq_true_eq, decide_eq_true_eq] at hi
      exact ⟨rfl, hidx i hi.1, hi.2.1, hi.2.2⟩
    have hcov : ∀ i, i < st.arr.length → (lrAt st.arr i).own ≠ .dummy → (⟨st.gen, i⟩ : LRPtr) ∈ cells'.flatten := by
      intro i hi hnd
      rw [mem_flatten_getD']
      refine ⟨c.block.flatIndexOfPosition (lrAt st.arr i).pos, ?_⟩
      rw [h4', List.mem_map]
      refine ⟨i, ?_, rfl⟩
      unfold sortedTo
      rw [List.mem_filter, List.mem_range'_1]
      refine ⟨by omega, ?_⟩
      simp [hnd]
    have hnd : (cells'.flatten.map LRPtr.idx).Nodup := by
      rw [List.map_flatten, List.nodup_flatten]
      constructor
      · intro l hl
        obtain ⟨l0, hl0, rfl⟩ := List.mem_map.1 hl
        obtain ⟨k, hk⟩ := List.getElem?_of_mem hl0
        have : l0 = cells'.getD k [] := by rw [List.getD, hk]; rfl
        rw [this, h4' k, List.map_map]
        have e : (LRPtr.idx ∘ LRPtr.mk st.gen) = id := rfl
        rw [e, List.map_id]
        exact (List.nodup_range' (step := 1)).filter _
      · rw [List.pairwise_map, List.pairwise_iff_getElem]
        intro a b ha hb hab
        intro x hx hy
        obtain ⟨qa, hqa, rfl⟩ := List.mem_map.1 hx
        obtain ⟨qb, hqb, he⟩ := List.mem_map.1 hy
        have e1 := hmem a qa (by rw [List.getD, List.getElem?_eq_getElem ha]; exact hqa)
        have e2 := hmem b qb (by rw [List.getD, List.getElem?_eq_getElem hb]; exact hqb)
        rw [he] at e2
        omega
    refine ⟨_, rfl, rfl, ⟨rfl, rfl, hfit, h3, ?_, hnd, ?_⟩, ?_⟩
    · intro l hl q hq
      obtain ⟨k, hk⟩ := List.getElem?_of_mem hl
      have e := hmem k q (by rw [List.getD, hk]; exact hq)
      exact ⟨e.1, e.2.1⟩
    · intro i hi hnd'
      exact List.mem_map.2 ⟨_, hcov i hi hnd', rfl⟩
    · intro k p hp
      rw [look_getD] at hp
      obtain ⟨q, hq, rfl⟩ := List.mem_map.1 hp
      obtain ⟨e1, e2, e3, e4⟩ := hmem k q hq
      exact ⟨e3, hall _ (List.mem_of_getElem? (lrAt_some e2)) e3, e4⟩

/-- Adding a particle: it throws only if something stored, or the particle, does not belong where it is. -/
theorem lrAdd_spec (h : LHParamsOk c) {grow : Nat → Nat} (hg : ∀ n, n < grow n) {st : LRState} (hi : LRInv c st) {m : Nat}
    (hp : ∀ k, ∀ p ∈ st.look.getD k [], PlaceOk c m k p) {p : Particle} (hfit : LRFitting c p) (hnd : p.own ≠ .dummy) :
    ((∃ q ∈ st.arr, q.own ≠ .dummy ∧ ¬ LRFitting c q) ∧ st.add c grow p = .throws) ∨
    (∃ st', st.add c grow p = .ok st' ∧ st'.arr = st.arr ++ [p] ∧ LRInv c st' ∧ ∀ k, ∀ p ∈ st'.look.getD k [], PlaceOk c m k p) := by
  unfold LRState.add
  have hcap := hi.fit
  by_cases hz : st.cap = st.arr.length ∨ st.arr.length = 0
  · -- everything is sorted in again
    have hidx0 : (st.pushBack grow p).dirtyIndex = 0 := by
      unfold LRState.pushBack
      by_cases hcc : st.cap = st.arr.length
      · simp [hcc]
      · have h0 : st.arr.length = 0 := by tauto
        simp only [if_neg hcc]
        rw [hi.index, h0]
    have harr : (st.pushBack grow p).arr = st.arr ++ [p] := by
      unfold LRState.pushBack; dsimp only; split <;> rfl
    have hcells : (st.pushBack grow p).cells = st.cells := by
      unfold LRState.pushBack; dsimp only; split <;> rfl
    have hdirty : (st.pushBack grow p).dirty = true := by
      unfold LRState.pushBack; dsimp only; split <;> rfl
    have hcap' : (st.pushBack grow p).arr.length ≤ (st.pushBack grow p).cap := by
      rw [harr, List.length_append, List.length_singleton]
      unfold LRState.pushBack; dsimp only; split
      · rename_i hcc; have := hg st.cap; dsimp only; omega
      · rename_i hcc; dsimp only; omega
    rcases resort_spec h hdirty hidx0 hcap' (by rw [hcells]; exact hi.len) with ⟨⟨q, hq, h1, h2⟩, h3⟩ | ⟨h1, st', h2, h3, h4, h5⟩
    · left
      rw [harr] at hq
      rcases List.mem_append.1 hq with hq | hq
      · exact ⟨⟨q, hq, h1, h2⟩, h3⟩
      · rw [List.mem_singleton.1 hq] at h2; exact absurd hfit h2
    · right
      refine ⟨st', h2, by rw [h3, harr], h4, ?_⟩
      intro k q hq
      obtain ⟨-, e2, e3⟩ := h5 k q hq
      rw [← e3]; exact e2.place h m
  · right
    rw [not_or] at hz
    obtain ⟨hcc, h0⟩ := hz
    have hpb : st.pushBack grow p = { st with dirty := true, arr := st.arr ++ [p] } := by
      unfold LRState.pushBack; simp only; rw [if_neg hcc]
    rw [hpb]
    unfold LRState.updateDirty
    simp only [if_true, hi.index, if_neg h0, List.length_append, List.length_singleton, Nat.add_sub_cancel_left]
    have hr : List.range' st.arr.length 1 = [st.arr.length] := rfl
    rw [hr]
    rcases lrSort_cases h st.gen (arr := st.arr ++ [p]) [st.arr.length] (by simp) hi.len with
      ⟨⟨i, hii, h1, h2⟩, -⟩ | ⟨-, cells', h2, h3, h4⟩
    · rw [List.mem_singleton.1 hii, lrAt_append_self] at h2
      exact absurd hfit h2
    · rw [h2]
      set k0 := c.block.flatIndexOfPosition p.pos with hk0
      have hk0l : k0 < st.cells.length := by rw [hi.len]; exact block_index_lt h _
      have hcells' : cells' = st.cells.set k0 (st.cells.getD k0 [] ++ [⟨st.gen, st.arr.length⟩]) := by
        apply List.ext_getElem?
        intro k
        by_cases hk : k < c.block.numCells
        · have e := h4 k
          have hk' : k < st.cells.length := by rw [hi.len]; exact hk
          have e1 : cells'[k]? = some (cells'.getD k []) := by
            rw [List.getD, List.getElem?_eq_getElem (by omega)]; rfl
          rw [e1, e]
          unfold sortedTo
          by_cases hkk : k = k0
          · subst hkk
            rw [List.getElem?_set_self hk0l, List.filter_cons_of_pos (by rw [lrAt_append_self]; simp [hnd, hk0])]
            rfl
          · rw [List.getElem?_set_ne (Ne.symm hkk), List.filter_cons_of_neg
              (by rw [lrAt_append_self]; simp only [Bool.and_eq_true, decide_eq_true_eq, not_and]; intro _ he; exact hkk (he ▸ rfl))]
            simp [List.getD, List.getElem?_eq_getElem hk']
        · rw [List.getElem?_eq_none (by omega), List.getElem?_eq_none (by rw [List.length_set, hi.len]; omega)]
      have hflat : cells'.flatten.Perm (st.cells.flatten ++ [⟨st.gen, st.arr.length⟩]) := by
        rw [hcells']; exact flatten_set_append hk0l _
      have hmem : ∀ k q, q ∈ cells'.getD k [] → q ∈ st.cells.getD k [] ∨ (k = k0 ∧ q = ⟨st.gen, st.arr.length⟩) := by
        intro k q hq; rw [hcells'] at hq; exact mem_set_append hq
      refine ⟨_, rfl, rfl, ⟨rfl, by simp, ?_, h3, ?_, ?_, ?_⟩, ?_⟩
      · simp only [List.length_append, List.length_singleton]; omega
      · intro l hl q hq
        obtain ⟨k, hk⟩ := List.getElem?_of_mem hl
        dsimp only at hk
        rcases hmem k q (by rw [List.getD, hk]; exact hq) with hq' | ⟨-, rfl⟩
        · have := hi.goodAt k q hq'
          exact ⟨this.1, by simp; omega⟩
        · exact ⟨rfl, by simp⟩
      · dsimp only
        rw [(hflat.map LRPtr.idx).nodup_iff, List.map_append, List.nodup_append]
        refine ⟨hi.nodup, by simp, ?_⟩
        intro a ha b hb
        have := hi.bound a ha
        simp at hb
        omega
      · intro i hil hnd'
        dsimp only at hil hnd' ⊢
        rw [(hflat.map LRPtr.idx).mem_iff, List.map_append, List.mem_append]
        rw [List.length_append, List.length_singleton] at hil
        by_cases hie : i = st.arr.length
        · right; rw [hie]; simp
        · left
          exact hi.cover i (by omega) (by rw [← lrAt_append_lt (l := [p]) (by omega)]; exact hnd')
      · intro k q hq
        rw [look_getD] at hq
        obtain ⟨x, hx, rfl⟩ := List.mem_map.1 hq
        dsimp only at hx ⊢
        rcases hmem k x hx with hx' | ⟨rfl, rfl⟩
        · rw [lrAt_append_lt (hi.goodAt k x hx').2]
          apply hp k
          rw [look_getD]
          exact List.mem_map.2 ⟨x, hx', rfl⟩
        · dsimp only
          rw [lrAt_append_self]
          exact hfit.place h m

end Verif
