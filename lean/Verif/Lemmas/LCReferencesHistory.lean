import Verif.Lemmas.LCReferencesUpdate
/-! The container `linkedCellsReferences`: operations that work in place, and histories. -/
namespace Verif
open Spec

variable {c : LHParams}

/-! ### Writing through the pointers -/

theorem write_spec (is : List Nat) (hn : is.Nodup) : ∀ (arr ps : List Particle), (∀ i ∈ is, i < arr.length) → is.length = ps.length →
    ((is.zip ps).foldl (fun a x => a.set x.1 x.2) arr).length = arr.length ∧
    (∀ j, j ∉ is → lrAt ((is.zip ps).foldl (fun a x => a.set x.1 x.2) arr) j = lrAt arr j) ∧
    is.map (lrAt ((is.zip ps).foldl (fun a x => a.set x.1 x.2) arr)) = ps := by
  induction is with
  | nil =>
    intro arr ps _ hl
    cases ps with
    | nil => exact ⟨rfl, fun _ _ => rfl, rfl⟩
    | cons p ps => cases hl
  | cons i is ih =>
    intro arr ps hb hl
    cases ps with
    | nil => cases hl
    | cons p ps =>
      rw [List.nodup_cons] at hn
      have hi := hb i (List.mem_cons_self ..)
      obtain ⟨h1, h2, h3⟩ := ih hn.2 (arr.set i p) ps (fun j hj => by rw [List.length_set]; exact hb j (List.mem_cons_of_mem _ hj))
        (by simpa using hl)
      rw [List.zip_cons_cons, List.foldl_cons]
      refine ⟨by rw [h1, List.length_set], ?_, ?_⟩
      · intro j hj
        rw [List.mem_cons, not_or] at hj
        rw [h2 j hj.2, lrAt_set hi, if_neg hj.1]
      · rw [List.map_cons, h3, h2 i hn.1, lrAt_set hi, if_pos rfl]

theorem shape_length {α β : Type} {a : List (List α)} {b : List (List β)} (h : a.map List.length = b.map List.length) :
    a.flatten.length = b.flatten.length := by rw [List.length_flatten, List.length_flatten, h]

theorem writeBack_spec {st : LRState} (h : LRInv c st) {v : List (List Particle)} (hv : v.map List.length = st.look.map List.length) :
    LRInv c (st.writeBack v) ∧ (st.writeBack v).look = v ∧ (st.writeBack v).arr.length = st.arr.length := by
  have hsh : st.look.map List.length = st.cells.map List.length := by
    unfold LRState.look; rw [List.map_map]; exact List.map_congr_left fun l _ => lrLook_length _ _
  have hlen : (st.cells.flatten.map LRPtr.idx).length = v.flatten.length := by
    rw [List.length_map]; exact (shape_length (hv.trans hsh)).symm
  obtain ⟨w1, w2, w3⟩ := write_spec _ h.nodup st.arr v.flatten h.bound hlen
  have e : (st.writeBack v).arr = ((st.cells.flatten.map LRPtr.idx).zip v.flatten).foldl (fun a x => a.set x.1 x.2) st.arr := rfl
  rw [← e] at w1 w2 w3
  refine ⟨⟨h.clean, ?_, ?_, h.len, ?_, h.nodup, ?_⟩, ?_, w1⟩
  · rw [w1]; exact h.index
  · rw [w1]; exact h.fit
  · rw [w1]; exact h.good
  · intro i hi hnd
    by_contra hc
    rw [w2 i hc] at hnd
    exact hc (h.cover i (by rw [← w1]; exact hi) hnd)
  · rw [List.eq_iff_flatten_eq]
    constructor
    · rw [look_flatten]; exact w3
    · rw [hv, hsh]
      unfold LRState.look; rw [List.map_map]; exact List.map_congr_left fun l _ => lrLook_length _ _

/-! ### Loops that write in place keep the shape of the cells -/

theorem fetchVecs_cells {P : Type} (cfg : IterCfg P) (s : IterState P) : (fetchVecs cfg s).cells = s.cells := by
  unfold fetchVecs; split <;> rfl

theorem fetch_cells {P : Type} (cfg : IterCfg P) (s : IterState P) : (fetch cfg s).cells = s.cells := by
  unfold fetch
  split
  · exact fetchVecs_cells _ _
  · split
    · rfl
    · split
      · rfl
      · rw [fetchVecs_cells]

theorem shape_set {α : Type} {cells : List (List α)} {k : Nat} {l : List α} (h : l.length = (cells.getD k []).length) :
    (cells.set k l).map List.length = cells.map List.length := by
  apply List.ext_getElem?
  intro j
  rw [List.getElem?_map, List.getElem?_map]
  by_cases hj : j = k
  · subst hj
    by_cases hl : j < cells.length
    · rw [List.getElem?_set_self hl, List.getElem?_eq_getElem hl]
      rw [List.getD, List.getElem?_eq_getElem hl] at h
      simpa using h
    · rw [List.set_eq_of_length_le (by omega)]
  · rw [List.getElem?_set_ne (Ne.symm hj)]

theorem iterLoop_shape {P : Type} (cfg : IterCfg P) (g : List P → P → P) (n : Nat) : ∀ (seen : List P) (s : IterState P) {r},
    iterLoop cfg (fun l p => some (g l p)) n seen s = some r → r.2.cells.map List.length = s.cells.map List.length := by
  induction n with
  | zero => intro seen s r h; simp [iterLoop] at h
  | succ n ih =>
    intro seen s r h
    unfold iterLoop at h
    split at h
    · cases h; rfl
    · dsimp only at h
      rw [Option.map_eq_some_iff] at h
      obtain ⟨t, ht, rfl⟩ := h
      have := ih _ _ ht
      dsimp only
      rw [this]
      unfold iterNext afterBody
      rw [fetch_cells]
      dsimp only
      unfold iterWrite
      split
      · rfl
      · dsimp only
        exact shape_set (by rw [List.length_set])

theorem collectOne_shape {cs : Nat} {cells : List (List Particle)} {vol : V3 Rat × V3 Rat} {t : Nat} {r}
    (h : collectOne c cs cells vol t = some r) : r.1.map List.length = cells.map List.length := by
  unfold collectOne at h
  dsimp only at h
  rw [Option.map_eq_some_iff] at h
  obtain ⟨x, hx, rfl⟩ := h
  rw [markBody_eq] at hx
  have := iterLoop_shape _ (fun _ p => marked c p) _ _ _ hx
  dsimp only
  rw [this]
  unfold iterBegin
  rw [fetch_cells]

theorem collectLeaving_shape {cs : Nat} {order : List ((V3 Rat × V3 Rat) × Nat)} {cells : List (List Particle)} {r}
    (h : collectLeaving c cs order cells = some r) : r.1.map List.length = cells.map List.length := by
  unfold collectLeaving at h
  have key : ∀ (order : List ((V3 Rat × V3 Rat) × Nat)) (a : Option (List (List Particle) × List Particle)) {r},
      order.foldl (fun acc job => acc.bind fun a => (collectOne c cs a.1 job.1 job.2).map fun r => (r.1, a.2 ++ r.2)) a = some r →
      ∃ a', a = some a' ∧ r.1.map List.length = a'.1.map List.length := by
    intro order
    induction order with
    | nil => intro a r h; exact ⟨r, h, rfl⟩
    | cons job order ih =>
      intro a r h
      rw [List.foldl_cons] at h
      obtain ⟨a1, h1, h2⟩ := ih _ h
      rw [Option.bind_eq_some_iff] at h1
      obtain ⟨a0, h3, h4⟩ := h1
      rw [Option.map_eq_some_iff] at h4
      obtain ⟨x, hx, rfl⟩ := h4
      have h5 := collectOne_shape hx
      exact ⟨a0, h3, h2.trans h5⟩
  obtain ⟨a', h1, h2⟩ := key order _ h
  cases h1
  exact h2

/-! ### The operations -/

theorem lrStore {st : LRState} (h : LRInv c st) {m : Nat} (hp : ∀ k, ∀ p ∈ st.look.getD k [], PlaceOk c m k p)
    (hn : st.arr.length < 2 ^ 64) : StoreOk c m st.look := by
  refine ⟨by unfold LRState.look; rw [List.length_map, h.len], hp, ?_⟩
  rw [look_flatten, List.length_map]
  have : (st.cells.flatten.map LRPtr.idx).length ≤ st.arr.length := by
    have hs : (st.cells.flatten.map LRPtr.idx) ⊆ List.range st.arr.length := fun i hi => List.mem_range.2 (h.bound i hi)
    simpa using (List.subperm_of_subset h.nodup hs).length_le
  omega

theorem owned_decide : (fun p : Particle => decide (p.own = .owned)) = isOwned := rfl

/-- What one operation does. -/
structure LRDone (c : LHParams) (m : Nat) (S wantedOut : List Particle) (n : Nat) (st : LRState)
    (r : List Particle) : Prop where
  inv : LRInv c st
  place : ∀ k, ∀ p ∈ st.look.getD k [], PlaceOk c m k p
  owned : (st.look.flatten.filter isOwned).Perm S
  few : st.arr.length ≤ n + 1
  handed : r.Perm wantedOut

theorem place_zero_mono (h : LHParamsOk c) {m k : Nat} {p : Particle} (hp : PlaceOk c 0 k p) : PlaceOk c m k p :=
  PlaceOk.mono h (Nat.zero_le m) hp

theorem fit_of_stored (h : LHParamsOk c) {st : LRState} (hi : LRInv c st) {m : Nat}
    (hp : ∀ k, ∀ p ∈ st.look.getD k [], PlaceOk c m k p) {q : Particle} (hq : q ∈ st.arr) (hnd : q.own ≠ .dummy)
    (hnf : ¬ LRFitting c q) : q ∈ st.look.flatten.filter isOwned ∧ inBoxB q.pos c.bMin c.bMax = false := by
  have hmem : q ∈ st.look.flatten.filter fun p => decide (p.own ≠ .dummy) :=
    hi.live.symm.subset (List.mem_filter.2 ⟨hq, by simpa using hnd⟩)
  have hq' := (List.mem_filter.1 hmem).1
  obtain ⟨k, hk⟩ := mem_flatten_getD'.1 hq'
  have hpl := hp k q hk
  rw [fitting_iff h, not_or] at hnf
  cases ho : q.own with
  | dummy => exact absurd ho hnd
  | halo => exact absurd ⟨ho, hpl.haloOut ho⟩ hnf.2
  | owned =>
    refine ⟨List.mem_filter.2 ⟨hq', by simp [isOwned, ho]⟩, ?_⟩
    cases hb : inBoxB q.pos c.bMin c.bMax with
    | false => rfl
    | true => exact absurd ⟨ho, hb⟩ hnf.1

theorem particleAt_eq {st : LRState} (h : LRInv c st) (k i : Nat) : st.particleAt k i = (st.look.getD k [])[i]? := by
  unfold LRState.particleAt
  rw [look_getD]
  unfold lrLook
  rw [List.getElem?_map]
  cases hq : (st.cells.getD k [])[i]? with
  | none => rfl
  | some q =>
    have hg := h.goodAt k q (List.mem_of_getElem? hq)
    show st.deref q = some _
    unfold LRState.deref
    rw [if_pos hg.1]; exact lrAt_some hg.2

theorem lrStep_spec (h : LHParamsOk c) {grow : Nat → Nat} (hg : ∀ n, n < grow n) {st : LRState} (hi : LRInv c st) {m : Nat}
    (hp : ∀ k, ∀ p ∈ st.look.getD k [], PlaceOk c m k p) {S : List Particle} (hS : (st.look.flatten.filter isOwned).Perm S)
    (hn : st.arr.length < 2 ^ 64) {a : LRAction} (ha : LRActionOk c m st S a) (hne : a ≠ .deleteAll) :
    (a.adds ∧ (∃ p ∈ S, ¬ InBox p.pos c.bMin c.bMax) ∧ lrStep c grow st a = .throws) ∨
    (∃ st' out, lrStep c grow st a = .ok (st', out) ∧
      LRDone c (a.moves m) (lrWanted c st S a).1 (lrWanted c st S a).2 st.arr.length st' out) := by
  have hadd : ∀ p : Particle, LRFitting c p → p.own ≠ .dummy →
      ((∃ p ∈ S, ¬ InBox p.pos c.bMin c.bMax) ∧ st.add c grow p = .throws) ∨
      (∃ st', st.add c grow p = .ok st' ∧ LRInv c st' ∧ (∀ k, ∀ p ∈ st'.look.getD k [], PlaceOk c m k p) ∧
        (st'.look.flatten.filter isOwned).Perm (S ++ [p].filter isOwned) ∧ st'.arr.length ≤ st.arr.length + 1) := by
    intro p hf hnd
    rcases lrAdd_spec h hg hi hp hf hnd with ⟨⟨q, hq, h1, h2⟩, h3⟩ | ⟨st', e1, e2, e3, e4⟩
    · left
      obtain ⟨g1, g2⟩ := fit_of_stored h hi hp hq h1 h2
      refine ⟨⟨q, hS.subset g1, ?_⟩, h3⟩
      rw [inBoxB_iff, decide_eq_false_iff_not] at g2
      exact g2
    · right
      refine ⟨st', e1, e3, e4, ?_, by rw [e2]; simp⟩
      refine e3.owned.trans ?_
      rw [e2, List.filter_append]
      exact (hi.owned.symm.trans hS).append_right _
  cases a with
  | deleteAll => exact absurd rfl hne
  | add p =>
    obtain ⟨ho, hin⟩ := ha
    have hf : LRFitting c p := (fitting_iff h p).2 (Or.inl ⟨ho, by rw [inBoxB_iff]; exact decide_eq_true hin⟩)
    rcases hadd p hf (by rw [ho]; decide) with ⟨h1, h2⟩ | ⟨st', e1, e2, e3, e4, e5⟩
    · left; exact ⟨trivial, h1, by rw [lrStep, h2]; rfl⟩
    · right
      refine ⟨st', [], by rw [lrStep, e1]; rfl, e2, e3, ?_, e5, List.Perm.refl _⟩
      rw [filter_owned_self (l := [p]) (by simpa using ho)] at e4
      exact e4
  | addHalo p =>
    obtain ⟨ho, hin⟩ := ha
    have hf : LRFitting c p := (fitting_iff h p).2 (Or.inr ⟨ho, by rw [inBoxB_iff]; exact decide_eq_false hin⟩)
    rcases hadd p hf (by rw [ho]; decide) with ⟨h1, h2⟩ | ⟨st', e1, e2, e3, e4, e5⟩
    · left; exact ⟨trivial, h1, by rw [lrStep, h2]; rfl⟩
    · right
      refine ⟨st', [], by rw [lrStep, e1]; rfl, e2, e3, ?_, e5, List.Perm.refl _⟩
      rw [filter_halo_nil (l := [p]) (by simpa using ho), List.append_nil] at e4
      exact e4
  | updateHalo p =>
    right
    obtain ⟨ho, hout, hnear⟩ := ha
    simp only [lrStep, LRState.updateHalo, hi.view]
    cases hu : updateHaloIn st.look p (nearbyHaloCells c.block p.pos c.skin) with
    | none =>
      exact ⟨st, [], rfl, hi, hp, hS, by omega, List.Perm.refl _⟩
    | some v' =>
      obtain ⟨k, hk, a, x, b, hcell, hid, rfl⟩ := updateHaloIn_spec p st.look _ hu
      have hhalo : c.block.cellCanContainHalo k = true := nearby_halo _ _ _ hk
      have hkl : k < st.look.length := by
        by_contra hc
        rw [List.getD, List.getElem?_eq_none (by omega)] at hcell
        simp at hcell
      have hsh : (st.look.set k (a ++ p :: b)).map List.length = st.look.map List.length := shape_set (by rw [hcell]; simp)
      obtain ⟨w1, w2, w3⟩ := writeBack_spec hi hsh
      refine ⟨_, [], rfl, w1, ?_, ?_, by rw [w3]; omega, List.Perm.refl _⟩
      · intro j q hq
        rw [w2] at hq
        by_cases hj : j = k
        · subst hj
          rw [getD_set_self' hkl] at hq
          have hx : st.particleAt j a.length = some x := by
            rw [particleAt_eq hi, hcell]; simp
          rcases List.mem_append.1 hq with hq | hq
          · exact hp j q (by rw [hcell]; simp [hq])
          · rcases List.mem_cons.1 hq with rfl | hq
            · exact ⟨fun hh => absurd (ho.symm.trans hh) (by decide), fun _ => hhalo, hnear j hhalo _ x hx hid,
                fun _ => by rw [inBoxB_iff]; exact decide_eq_false hout⟩
            · exact hp j q (by rw [hcell]; simp [hq])
        · rw [getD_set_ne' (Ne.symm hj)] at hq
          exact hp j q hq
      · rw [w2]
        have hnone : ∀ q ∈ st.look.getD k [], isOwned q = false := by
          intro q hq
          have := (hp k q hq).ownedIn
          unfold isOwned
          rw [decide_eq_false_iff_not]
          intro hoo
          rw [this hoo] at hhalo; cases hhalo
        have hf := (flatten_set_perm hkl (a ++ p :: b)).filter isOwned
        rw [List.filter_append, List.filter_append] at hf
        have e1 : (st.look.getD k []).filter isOwned = [] := List.filter_eq_nil_iff.2 fun q hq => by simp [hnone q hq]
        have e2 : (a ++ p :: b).filter isOwned = [] := by
          rw [List.filter_eq_nil_iff]
          intro q hq
          rcases List.mem_append.1 hq with hq | hq
          · simp [hnone q (by rw [hcell]; simp [hq])]
          · rcases List.mem_cons.1 hq with rfl | hq
            · simp [isOwned, ho]
            · simp [hnone q (by rw [hcell]; simp [hq])]
        rw [e1, e2, List.append_nil, List.append_nil] at hf
        exact hf.trans hS
  | move f =>
    right
    simp only [lrStep, LRState.move, hi.view]
    set g : Particle → Particle := fun p => if p.own = .owned then { p with pos := f p } else p with hgdef
    have hsh : (st.look.map (List.map g)).map List.length = st.look.map List.length := by
      rw [List.map_map]; exact List.map_congr_left fun l _ => by simp
    obtain ⟨w1, w2, w3⟩ := writeBack_spec hi hsh
    have hgo : ∀ p, (g p).own = p.own := by intro p; rw [hgdef]; dsimp only; split <;> rfl
    have hfilter : (st.look.map (List.map g)).flatten.filter isOwned = (st.look.flatten.filter isOwned).map fun p => { p with pos := f p } := by
      rw [← List.map_flatten, List.filter_map]
      have e : (isOwned ∘ g) = isOwned := by funext p; simp [isOwned, hgo]
      rw [e]
      apply List.map_congr_left
      intro p hpf
      have : p.own = .owned := by simpa [isOwned] using (List.mem_filter.1 hpf).2
      rw [hgdef]; dsimp only; rw [if_pos this]
    refine ⟨_, [], rfl, w1, ?_, ?_, by rw [w3]; omega, List.Perm.refl _⟩
    · intro k q hq
      rw [w2, List.getD, List.getElem?_map] at hq
      have hq' : q ∈ (st.look.getD k []).map g := by
        rw [List.getD]
        cases hs : st.look[k]? with
        | none => rw [hs] at hq; exact hq
        | some l => rw [hs] at hq; exact hq
      obtain ⟨p, hpk, rfl⟩ := List.mem_map.1 hq'
      have hpl := hp k p hpk
      by_cases hoo : p.own = .owned
      · have hgp : g p = { p with pos := f p } := by rw [hgdef]; dsimp only; rw [if_pos hoo]
        rw [hgp]
        have hmem : p ∈ S := hS.subset (List.mem_filter.2 ⟨mem_flatten_getD'.2 ⟨k, hpk⟩, by simp [isOwned, hoo]⟩)
        have hd := ha p hmem
        obtain ⟨old, h1, h2⟩ := hpl.near
        refine ⟨hpl.ownedIn, hpl.haloIn, ⟨old, h1, ?_⟩, fun hh => absurd (hoo.symm.trans hh) (by decide)⟩
        unfold Displaced at hd h2 ⊢
        have e : c.skinPerTimestep * ((LRAction.move f).moves m : Nat) = c.skinPerTimestep + c.skinPerTimestep * m := by
          unfold LRAction.moves; push_cast; ring
        rw [e]
        obtain ⟨d1, d2, d3⟩ := hd
        obtain ⟨d4, d5, d6⟩ := h2
        rw [abs_le] at d1 d2 d3 d4 d5 d6 ⊢
        rw [abs_le, abs_le]
        dsimp only
        refine ⟨⟨?_, ?_⟩, ⟨?_, ?_⟩, ?_, ?_⟩ <;> linarith [d1.1, d1.2, d2.1, d2.2, d3.1, d3.2, d4.1, d4.2, d5.1, d5.2, d6.1, d6.2]
      · have hgp : g p = p := by rw [hgdef]; dsimp only; rw [if_neg hoo]
        rw [hgp]
        exact PlaceOk.mono h (Nat.le_succ m) hpl
    · rw [w2, hfilter]
      exact hS.map _
  | delete k i =>
    right
    replace ha : st.particleAt k i ≠ none := ha
    unfold LRState.particleAt at ha
    simp only [lrStep, LRState.delete]
    cases hq : (st.cells.getD k [])[i]? with
    | none => rw [hq] at ha; exact absurd rfl ha
    | some q =>
      have hqm := List.mem_of_getElem? hq
      have hgq := hi.goodAt k q hqm
      have hder : st.deref q = some (lrAt st.arr q.idx) := by unfold LRState.deref; rw [if_pos hgq.1]; exact lrAt_some hgq.2
      dsimp only
      rw [hder]
      dsimp only
      set p := lrAt st.arr q.idx with hpdef
      have hpa : st.particleAt k i = some p := by unfold LRState.particleAt; rw [hq]; exact hder
      set st' : LRState := { st with arr := st.arr.set q.idx { p with own := .dummy } } with hst'
      have hat : ∀ j, lrAt st'.arr j = if j = q.idx then { p with own := .dummy } else lrAt st.arr j := fun j => lrAt_set hgq.2
      have hlen' : st'.arr.length = st.arr.length := by rw [hst']; simp
      have hinv : LRInv c st' := by
        refine ⟨hi.clean, by rw [hlen']; exact hi.index, by rw [hlen']; exact hi.fit, hi.len, by rw [hlen']; exact hi.good, hi.nodup, ?_⟩
        intro j hj hnd
        rw [hat] at hnd
        by_cases hjq : j = q.idx
        · rw [if_pos hjq] at hnd; exact absurd rfl hnd
        · rw [if_neg hjq] at hnd
          exact hi.cover j (by rw [← hlen']; exact hj) hnd
      refine ⟨st', [], rfl, hinv, ?_, ?_, by rw [hlen']; omega, List.Perm.refl _⟩
      · intro j x hx
        rw [look_getD] at hx
        obtain ⟨y, hy, rfl⟩ := List.mem_map.1 hx
        have hpl := hp j (lrAt st.arr y.idx) (by rw [look_getD]; exact List.mem_map.2 ⟨y, hy, rfl⟩)
        rw [hat]
        split
        · rename_i hyq
          rw [hyq, ← hpdef] at hpl
          refine ⟨?_, ?_, hpl.near, ?_⟩ <;> intro hh <;> cases hh
        · exact hpl
      · refine hinv.owned.trans ?_
        have hset := set_perm (lrAt_some hgq.2) ({ p with own := .dummy } : Particle)
        have hf := hset.filter isOwned
        rw [List.filter_append, List.filter_append] at hf
        have e2 : [({ p with own := .dummy } : Particle)].filter isOwned = [] := by simp [isOwned]
        rw [e2, List.append_nil, ← hpdef] at hf
        have hSarr : (st.arr.filter isOwned).Perm S := hi.owned.symm.trans hS
        show ((st.arr.set q.idx { p with own := .dummy }).filter isOwned).Perm _
        simp only [lrWanted, hpa]
        by_cases hoo : p.own = .owned
        · rw [if_pos hoo]
          rw [filter_owned_self (l := [p]) (by simpa using hoo)] at hf
          have h2 := (hf.trans hSarr).erase p
          refine List.Perm.trans ?_ h2
          exact ((List.perm_append_comm (l₁ := _) (l₂ := [p])).erase p |>.trans (by simp)).symm
        · rw [if_neg hoo]
          have : [p].filter isOwned = [] := by simp [isOwned, hoo]
          rw [this, List.append_nil] at hf
          exact hf.trans hSarr
  | keep cs order =>
    right
    obtain ⟨h1, h2, h3⟩ := ha
    obtain ⟨v', leave, e1, e2, e3, e4, e5, e6, -, -, -⟩ := collectLeaving_exact h h1 h2 h3 (lrStore hi hp hn)
    obtain ⟨w1, w2, w3⟩ := writeBack_spec hi (collectLeaving_shape e1)
    simp only [lrStep, LRState.updateKeep, hi.view]
    rw [e1]
    have eIn : (fun p : Particle => inBoxB p.pos c.bMin c.bMax) = fun p => decide (InBox p.pos c.bMin c.bMax) := by
      funext p; exact inBoxB_iff ..
    have eOut : (fun p : Particle => !inBoxB p.pos c.bMin c.bMax) = fun p => decide (¬ InBox p.pos c.bMin c.bMax) := by
      funext p; rw [inBoxB_iff]; simp
    refine ⟨_, _, rfl, w1, ?_, ?_, by rw [w3]; omega, ?_⟩
    · rw [w2]; exact e2.place
    · rw [w2]
      refine e5.trans ?_
      rw [eIn]
      exact hS.filter _
    · refine e6.trans ?_
      rw [eOut]
      exact hS.filter _
  | rebuild sched =>
    right
    obtain ⟨st', out, e1, e2, e3, e4, e5⟩ := lrUpdateRebuild_spec h hg ha hi hp
    have eIn : (fun p : Particle => inBoxB p.pos c.bMin c.bMax) = fun p => decide (InBox p.pos c.bMin c.bMax) := by
      funext p; exact inBoxB_iff ..
    have eOut : (fun p : Particle => !inBoxB p.pos c.bMin c.bMax) = fun p => decide (¬ InBox p.pos c.bMin c.bMax) := by
      funext p; rw [inBoxB_iff]; simp
    have hSarr : (st.arr.filter isOwned).Perm S := hi.owned.symm.trans hS
    refine ⟨st', out, e1, e2, fun k p hk => (e3 k p hk).2.2, ?_, ?_, ?_⟩
    · refine e2.owned.trans ((e4.filter isOwned).trans ?_)
      rw [filter_owned_self (fun p hpf => by
        have := (List.mem_filter.1 (List.mem_filter.1 hpf).1).2; simpa [isOwned] using this)]
      rw [eIn]
      exact hSarr.filter _
    · have := e4.length_eq
      have h6 := List.length_filter_le (fun p : Particle => inBoxB p.pos c.bMin c.bMax) (st.arr.filter isOwned)
      have h7 := List.length_filter_le isOwned st.arr
      omega
    · refine e5.trans ?_
      rw [eOut]
      exact hSarr.filter _

/-- Outputs agree up to order. -/
def SameOutputs (a b : List (List Particle)) : Prop := List.Forall₂ List.Perm a b

/-- Histories. -/
theorem lrRun_spec (h : LHParamsOk c) {grow : Nat → Nat} (hg : ∀ n, n < grow n) {extra : List Particle → LRAction → Prop}
    (he : ∀ S a, extra S a → a ≠ .deleteAll) (as : List LRAction) : ∀ {m : Nat} {st : LRState} {S : List Particle}, LRInv c st →
    (∀ k, ∀ p ∈ st.look.getD k [], PlaceOk c m k p) → (st.look.flatten.filter isOwned).Perm S →
    st.arr.length + as.length < 2 ^ 64 → LRHistoryOk c grow extra m st S as →
    (lrRun c grow st as = .throws ∧ ¬ (∀ S a, extra S a → a.adds → ∀ p ∈ S, InBox p.pos c.bMin c.bMax)) ∨
    (∃ st' outs, lrRun c grow st as = .ok (st', outs) ∧ LRInv c st' ∧
      (st'.look.flatten.filter isOwned).Perm (lrWantedRun c grow st S as).1 ∧ SameOutputs outs (lrWantedRun c grow st S as).2 ∧
      ∀ k, ∀ p ∈ st'.look.getD k [], PlaceOk c (as.foldl (fun m a => a.moves m) m) k p) := by
  induction as with
  | nil =>
    intro m st S hi hp hS _ _
    exact Or.inr ⟨st, [], rfl, hi, hS, List.Forall₂.nil, hp⟩
  | cons a as ih =>
    intro m st S hi hp hS hn hok
    obtain ⟨hok1, hex, hok2⟩ := hok
    rw [List.length_cons] at hn
    rcases lrStep_spec h hg hi hp hS (by omega) hok1 (he S a hex) with ⟨h1, ⟨p, hpS, hpo⟩, h2⟩ | ⟨st1, out, e1, e2⟩
    · left
      refine ⟨by unfold lrRun; rw [h2]; rfl, fun hall => hpo (hall S a hex h1 p hpS)⟩
    · rcases ih e2.inv e2.place e2.owned (by have := e2.few; omega) (hok2 _ e1) with ⟨f1, f2⟩ | ⟨st2, outs, f1, f2, f3, f4, f5⟩
      · left
        refine ⟨by unfold lrRun; rw [e1]; dsimp only [Outcome.bind]; rw [f1], f2⟩
      · right
        refine ⟨st2, out :: outs, by unfold lrRun; rw [e1]; dsimp only [Outcome.bind]; rw [f1], f2, ?_, ?_, f5⟩
        · unfold lrWantedRun; rw [e1]; exact f3
        · unfold lrWantedRun; rw [e1]; exact List.Forall₂.cons e2.handed f4

end Verif
