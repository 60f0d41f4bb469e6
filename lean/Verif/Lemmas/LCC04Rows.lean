import Verif.Lemmas.LCC04Memory
/-! What a base cell and a row of base cells of `lc_c04_combined_SoA` compute, with overlap 1. -/
namespace Verif
open Spec

/-- The tables for overlap 1; `dx` cells along x, `A` cells in a layer. -/
def c04One (dx A : Nat) : C04Tables :=
  ⟨[[0, dx], [1, dx + 1]],
   [[(0, 0, 2), (1, 1, 2), (A, 0, 2), (A + 1, 0, 2), (A + dx, 0, 1), (A + dx + 1, 0, 1)], [(0, 0, 2), (A, 0, 2), (A + dx, 0, 1)]]⟩

section
variable {P M : Type} [DecidableEq P] [AddCommMonoid M] {parts : Nat → List P} {size : Nat → Nat}

/-- The buffers that count if combined buffer `s` holds the cells `h s`. -/
def heldIn (parts : Nat → List P) (h : Nat → List Nat) : C04Ref → Option (List P)
  | .slot s => if h s = [] then none else some ((h s).flatMap parts)
  | .cell c => if (c ∈ h 0 ∨ c ∈ h 1) ∧ (parts c).isEmpty = false then none else some (parts c)

/-- Every particle is in one cell, once. -/
structure OwnCells (parts : Nat → List P) : Prop where
  nodup : ∀ c, (parts c).Nodup
  disjoint : ∀ c c' p, p ∈ parts c → p ∈ parts c' → c = c'

structure TwoSlots (h : Nat → List Nat) : Prop where
  nodup : (h 0 ++ h 1).Nodup
  two : ∀ s, 2 ≤ s → h s = []

omit [DecidableEq P] in
theorem separate_heldIn (hp : OwnCells parts) {h : Nat → List Nat} (hh : TwoSlots h) : Separate (heldIn parts h) := by
  have key : ∀ r Z p, heldIn parts h r = some Z → p ∈ Z → ∃ c, p ∈ parts c ∧
      match r with
      | .slot s => s < 2 ∧ c ∈ h s
      | .cell c' => c' = c ∧ c ∉ h 0 ∧ c ∉ h 1 := by
    intro r Z p hr hm
    cases r with
    | slot s =>
      simp only [heldIn] at hr
      split at hr
      · cases hr
      · rename_i hne
        obtain rfl := Option.some.inj hr
        obtain ⟨c, hc, hpc⟩ := List.mem_flatMap.1 hm
        refine ⟨c, hpc, ?_, hc⟩
        by_contra hs
        exact hne (hh.two s (by omega))
    | cell c =>
      simp only [heldIn] at hr
      split at hr
      · cases hr
      · rename_i hne
        obtain rfl := Option.some.inj hr
        refine ⟨c, hm, rfl, ?_⟩
        have : (parts c).isEmpty = false := by
          cases hq : parts c with
          | nil => rw [hq] at hm; cases hm
          | cons _ _ => rfl
        exact ⟨fun h0 => hne ⟨.inl h0, this⟩, fun h1 => hne ⟨.inr h1, this⟩⟩
  have hn := List.nodup_append.1 hh.nodup
  have hns : ∀ s, (h s).Nodup := by
    intro s
    by_cases h0 : s = 0
    · subst h0; exact hn.1
    · by_cases h1 : s = 1
      · subst h1; exact hn.2.1
      · rw [hh.two s (by omega)]; exact List.nodup_nil
  constructor
  · intro r Z hr
    cases r with
    | slot s =>
      simp only [heldIn] at hr
      split at hr
      · cases hr
      · obtain rfl := Option.some.inj hr
        rw [List.nodup_flatMap]
        refine ⟨fun c _ => hp.nodup c, (hns s).imp fun {a b} hab => ?_⟩
        intro p ha hb
        exact hab (hp.disjoint _ _ _ ha hb)
    | cell c =>
      simp only [heldIn] at hr
      split at hr
      · cases hr
      · obtain rfl := Option.some.inj hr
        exact hp.nodup c
  · intro r r' Z Z' p hr hr' hm hm'
    obtain ⟨c, hc, h1⟩ := key r Z p hr hm
    obtain ⟨c', hc', h2⟩ := key r' Z' p hr' hm'
    obtain rfl := hp.disjoint _ _ _ hc hc'
    have small : ∀ s, s < 2 → c ∈ h s → c ∈ h 0 ∨ c ∈ h 1 := by
      intro s hs hcs
      rcases (show s = 0 ∨ s = 1 by omega) with rfl | rfl
      · exact .inl hcs
      · exact .inr hcs
    cases r with
    | slot s =>
      cases r' with
      | slot s' =>
        obtain ⟨a1, a2⟩ := h1
        obtain ⟨b1, b2⟩ := h2
        congr 1
        rcases (show s = 0 ∨ s = 1 by omega) with rfl | rfl <;> rcases (show s' = 0 ∨ s' = 1 by omega) with rfl | rfl
        · rfl
        · exact absurd rfl (hn.2.2 c a2 c b2)
        · exact absurd rfl (hn.2.2 c b2 c a2)
        · rfl
      | cell d =>
        obtain ⟨a1, a2⟩ := h1
        obtain ⟨-, b1, b2⟩ := h2
        rcases small s a1 a2 with h | h
        · exact absurd h b1
        · exact absurd h b2
    | cell d =>
      cases r' with
      | slot s =>
        obtain ⟨a1, a2⟩ := h2
        obtain ⟨-, b1, b2⟩ := h1
        rcases small s a1 a2 with h | h
        · exact absurd h b1
        · exact absurd h b2
      | cell d' => exact congrArg C04Ref.cell (h1.1.trans h2.1.symm)

/-- A state in which slot `s` holds the cells `h s`. -/
structure Holding (parts : Nat → List P) (h : Nat → List Nat) (m : P → M) (st : C04State P M) : Prop where
  mem : Holds (heldIn parts h) m st.mem
  offsets : ∀ s, h s ≠ [] → st.offsets s = ((h s).map fun c => (parts c).length).scanl (· + ·) 0

omit [DecidableEq P] [AddCommMonoid M] in
theorem holding_cell {h : Nat → List Nat} {m : P → M} {st : C04State P M} (H : Holding parts h m st) {c : Nat} (h0 : c ∉ h 0) (h1 : c ∉ h 1) :
    st.mem (.cell c) = tag m (parts c) := by
  apply H.mem
  simp only [heldIn]
  rw [if_neg]
  rintro ⟨h | h, -⟩
  · exact h0 h
  · exact h1 h

omit [DecidableEq P] [AddCommMonoid M] in
/-- `writeCellIntoBuffer` into a slot that holds nothing. -/
theorem holding_load (hsize : ∀ c, size c = (parts c).length) {h : Nat → List Nat} {m : P → M} {st : C04State P M} (H : Holding parts h m st)
    {t : C04Tables} {base s k : Nat} {cs : List Nat} (hcs : (t.base.getD k []).map (fun o => base + o) = cs) (hs0 : h s = [])
    (hfree : ∀ c ∈ cs, c ∉ h 0 ∧ c ∉ h 1) :
    Holding parts (Function.update h s cs) m (C04State.load size t base st s k) := by
  unfold C04State.load
  rw [hcs]
  constructor
  · intro r Z hr
    cases r with
    | slot s' =>
      simp only
      by_cases he : s' = s
      · subst he
        simp only [heldIn, Function.update_self] at hr
        rw [Function.update_self]
        split at hr
        · cases hr
        · obtain rfl := Option.some.inj hr
          rw [tag_flatMap]
          apply List.flatMap_congr
          intro c hc
          exact holding_cell H (hfree c hc).1 (hfree c hc).2
      · simp only [heldIn, Function.update_of_ne he] at hr
        rw [Function.update_of_ne (by simpa using he)]
        exact H.mem _ _ hr
    | cell c =>
      simp only
      rw [Function.update_of_ne (by simp)]
      simp only [heldIn] at hr
      split at hr
      · cases hr
      · rename_i hne
        obtain rfl := Option.some.inj hr
        by_cases hin : c ∈ cs
        · exact holding_cell H (hfree c hin).1 (hfree c hin).2
        · apply H.mem
          simp only [heldIn]
          rw [if_neg]
          rintro ⟨hq, he⟩
          refine hne ⟨?_, he⟩
          rcases hq with hq | hq
          · left
            rw [Function.update_of_ne]
            · exact hq
            · rintro rfl; rw [hs0] at hq; cases hq
          · right
            rw [Function.update_of_ne]
            · exact hq
            · rintro rfl; rw [hs0] at hq; cases hq
  · intro s' hs'
    simp only
    by_cases he : s' = s
    · subst he
      rw [Function.update_self, Function.update_self]
      congr 1
      exact List.map_congr_left fun c _ => hsize c
    · rw [Function.update_of_ne he] at hs' ⊢
      rw [Function.update_of_ne he]
      exact H.offsets s' hs'

omit [DecidableEq P] [AddCommMonoid M] in
theorem storeOne_eq {m : P → M} {st : C04State P M} {t : C04Tables} {base s k i : Nat} {X A Y : List P} (dummy : P × M)
    (hm : st.mem (.slot s) = tag m (X ++ A ++ Y)) (h1 : (st.offsets s).getD i 0 = X.length)
    (h2 : (st.offsets s).getD (i + 1) 0 = X.length + A.length) :
    C04State.storeOne dummy t base s k st i = if A = [] then st else
      { st with mem := Function.update (Function.update st.mem (.slot s) (tag m (X ++ A))) (.cell (base + (t.base.getD k []).getD i 0)) (tag m A) } := by
  unfold C04State.storeOne
  simp only [h1, h2]
  by_cases hA : A = []
  · rw [if_pos hA, if_pos (by simp [hA])]
  · have hl : A.length ≠ 0 := by simpa using hA
    rw [if_neg hA, if_neg (by omega)]
    have e1 : (st.mem (.slot s)).take (X.length + A.length) = tag m (X ++ A) := by
      rw [hm, tag_append, List.take_left' (by simp)]
    have e2 : X.length + A.length - (st.mem (.slot s)).length = 0 := by
      rw [hm]; simp
    rw [e1, e2, List.replicate_zero, List.append_nil, tag_append, List.drop_left' (by simp)]

omit [DecidableEq P] [AddCommMonoid M] in
/-- `writeBufferIntoCell` of a slot that holds two cells. -/
theorem holding_store {h : Nat → List Nat} (hh : TwoSlots h) {m : P → M} {st : C04State P M} (H : Holding parts h m st)
    {t : C04Tables} {base s k o₁ o₂ : Nat} (ht : t.base.getD k [] = [o₁, o₂]) (hs : h s = [base + o₁, base + o₂]) (dummy : P × M) :
    Holding parts (Function.update h s []) m (C04State.store dummy t base st s k) ∧
    (C04State.store dummy t base st s k).current = st.current := by
  have hoff := H.offsets s (by rw [hs]; simp)
  rw [hs] at hoff
  have hoff : st.offsets s = [0, (parts (base + o₁)).length, (parts (base + o₁)).length + (parts (base + o₂)).length] := by
    rw [hoff]; simp [List.scanl]
  have hbuf : st.mem (.slot s) = tag m (parts (base + o₁) ++ parts (base + o₂)) := by
    apply H.mem
    simp only [heldIn, hs]
    simp
  set p₁ := parts (base + o₁) with hp₁
  set p₂ := parts (base + o₂) with hp₂
  have hne : o₁ ≠ o₂ := by
    rintro rfl
    have hn := List.nodup_append.1 hh.nodup
    by_cases h0 : s = 0
    · subst h0; have := hn.1; rw [hs] at this; simp at this
    · by_cases h1 : s = 1
      · subst h1; have := hn.2.1; rw [hs] at this; simp at this
      · rw [hh.two s (by omega)] at hs; cases hs
  -- the memory afterwards
  have hmem : ∃ mem', (C04State.store dummy t base st s k) = ⟨mem', st.offsets, st.current⟩ ∧
      (∀ c, mem' (.cell c) = if c = base + o₁ ∧ p₁ ≠ [] then tag m p₁ else if c = base + o₂ ∧ p₂ ≠ [] then tag m p₂ else st.mem (.cell c)) ∧
      ∀ s', s' ≠ s → mem' (.slot s') = st.mem (.slot s') := by
    have hl : (List.range (t.base.getD k []).length).reverse = [1, 0] := by rw [ht]; rfl
    unfold C04State.store
    rw [hl]
    simp only [List.foldl_cons, List.foldl_nil]
    rw [storeOne_eq (m := m) (st := st) (i := 1) (X := p₁) (A := p₂) (Y := []) dummy (by rw [hbuf, List.append_nil]) (by rw [hoff]; rfl) (by rw [hoff]; rfl), ht]
    by_cases h2 : p₂ = []
    · rw [if_pos h2, storeOne_eq (m := m) (st := st) (i := 0) (X := []) (A := p₁) (Y := p₂) dummy (by rw [hbuf, List.nil_append]) (by rw [hoff]; rfl)
        (by rw [hoff]; simp), ht]
      by_cases h1 : p₁ = []
      · rw [if_pos h1]
        exact ⟨st.mem, rfl, fun c => by simp [h1, h2], fun _ _ => rfl⟩
      · rw [if_neg h1]
        refine ⟨_, rfl, fun c => ?_, fun s' hs' => ?_⟩
        · by_cases hc : c = base + o₁
          · subst hc
            simp [h1]
          · rw [Function.update_of_ne (by simpa using hc), Function.update_of_ne (by simp)]
            simp [hc, h2]
        · rw [Function.update_of_ne (by simp), Function.update_of_ne (by simpa using hs')]
    · rw [if_neg h2]
      rw [storeOne_eq (i := 0) (X := []) (A := p₁) (Y := p₂) dummy (m := m)
        (by simp only; rw [Function.update_of_ne (by simp), Function.update_self, List.nil_append]) (by simp only; rw [hoff]; rfl)
        (by simp only; rw [hoff]; simp), ht]
      by_cases h1 : p₁ = []
      · rw [if_pos h1]
        refine ⟨_, rfl, fun c => ?_, fun s' hs' => ?_⟩
        · by_cases hc : c = base + o₂
          · subst hc
            simp [h1, h2]
          · rw [Function.update_of_ne (by simpa using hc), Function.update_of_ne (by simp)]
            simp [hc, h1]
        · rw [Function.update_of_ne (by simp), Function.update_of_ne (by simpa using hs')]
      · rw [if_neg h1]
        refine ⟨_, rfl, fun c => ?_, fun s' hs' => ?_⟩
        · simp only
          by_cases hc : c = base + o₁
          · subst hc
            simp [h1]
          · rw [Function.update_of_ne (by simpa using hc), Function.update_of_ne (by simp)]
            by_cases hc2 : c = base + o₂
            · subst hc2
              simp [h2, Ne.symm hne]
            · rw [Function.update_of_ne (by simpa using hc2), Function.update_of_ne (by simp)]
              simp [hc, hc2]
        · simp only
          rw [Function.update_of_ne (by simp), Function.update_of_ne (by simpa using hs'), Function.update_of_ne (by simp),
            Function.update_of_ne (by simpa using hs')]
  obtain ⟨mem', hst, hc, hsl⟩ := hmem
  rw [hst]
  refine ⟨⟨?_, ?_⟩, rfl⟩
  · intro r Z hr
    cases r with
    | slot s' =>
      simp only [heldIn] at hr
      by_cases he : s' = s
      · subst he
        simp at hr
      · rw [Function.update_of_ne he] at hr
        exact (hsl s' he).trans (H.mem _ _ hr)
    | cell c =>
      simp only [heldIn] at hr
      split at hr
      · cases hr
      · rename_i hx
        obtain rfl := Option.some.inj hr
        simp only
        rw [hc]
        by_cases c1 : c = base + o₁ ∧ p₁ ≠ []
        · rw [if_pos c1, c1.1]
        · rw [if_neg c1]
          by_cases c2 : c = base + o₂ ∧ p₂ ≠ []
          · rw [if_pos c2, c2.1]
          · rw [if_neg c2]
            apply H.mem
            simp only [heldIn]
            rw [if_neg]
            rintro ⟨hq, he⟩
            have hnotin : c ∉ h s := by
              rw [hs]
              simp only [List.mem_cons, List.not_mem_nil, or_false]
              rintro (rfl | rfl)
              · exact c1 ⟨rfl, by rw [hp₁]; intro h; rw [h] at he; cases he⟩
              · exact c2 ⟨rfl, by rw [hp₂]; intro h; rw [h] at he; cases he⟩
            refine hx ⟨?_, he⟩
            rcases hq with hq | hq
            · left
              rw [Function.update_of_ne]
              · exact hq
              · rintro rfl; exact hnotin hq
            · right
              rw [Function.update_of_ne]
              · exact hq
              · rintro rfl; exact hnotin hq
  · intro s' hs'
    by_cases he : s' = s
    · subst he; simp at hs'
    · rw [Function.update_of_ne he] at hs' ⊢
      exact H.offsets s' hs'

end

end Verif
