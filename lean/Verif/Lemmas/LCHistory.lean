import Verif.Lemmas.LCDelete
import Verif.Spec.ParticleHistory
import Verif.Props.C28
/-! Histories of particle operations: the invariant and its preservation. -/
namespace Verif
open Spec

variable {c : LHParams}

/-- What holds between operations; `n` bounds the number of stored particles. -/
structure HInv (c : LHParams) (mv : Moves) (n : Nat) (s : LHState) : Prop where
  len : s.cells.length = c.block.numCells
  place : ∀ k, ∀ p ∈ s.cells.getD k [], PlaceOk c mv.sinceRebuild k p
  bl : s.bufs.length = c.numThreads
  hl : s.haloBufs.length = c.numThreads
  bown : ∀ p ∈ s.bufs.flatten, p.own = .owned
  hown : ∀ p ∈ s.haloBufs.flatten, p.own = .halo
  cnt : s.nOwned = (ownedOf s).length
  few : s.cells.flatten.length + s.bufs.flatten.length + s.haloBufs.flatten.length ≤ n
  moves : mv.sinceRebuild ≤ s.steps + (if mv.sinceUpdate then 1 else 0)
  fresh : s.called = false → s.valid = false

/-- The test for owned particles. -/
def isOwned (p : Particle) : Bool := decide (p.own = .owned)

theorem filter_halo_nil {l : List Particle} (h : ∀ p ∈ l, p.own = .halo) : l.filter isOwned = [] := by
  rw [List.filter_eq_nil_iff]
  intro p hp
  simp [isOwned, h p hp]

theorem filter_owned_self {l : List Particle} (h : ∀ p ∈ l, p.own = .owned) : l.filter isOwned = l := by
  rw [List.filter_eq_self]
  intro p hp
  simp [isOwned, h p hp]

theorem ownedOf_eq {s : LHState} (hb : ∀ p ∈ s.bufs.flatten, p.own = .owned) (hh : ∀ p ∈ s.haloBufs.flatten, p.own = .halo) :
    ownedOf s = s.cells.flatten.filter isOwned ++ s.bufs.flatten := by
  show List.filter isOwned _ = _
  rw [List.filter_append, List.filter_append, filter_halo_nil hh, filter_owned_self hb, List.append_nil]

theorem HInv.store {mv : Moves} {n : Nat} {s : LHState} (h : HInv c mv n s) (hn : n < 2 ^ 64) : StoreOk c mv.sinceRebuild s.cells :=
  ⟨h.len, h.place, by have := h.few; omega⟩

/-- A deletion loop keeps exactly the particles that are not wanted or not to be deleted, wherever they are. -/
theorem deleteLoop_spec (hc : LHParamsOk c) {mv : Moves} {n : Nat} {s : LHState} (h : HInv c mv n s) (hn : n < 2 ^ 64)
    {behavior : Nat} (hb : behavior.testBit 2 = false) (d : Particle → Bool) :
    ∃ s', s.deleteLoop c behavior d = some s' ∧ s'.cells.length = s.cells.length ∧
      (∀ k, (s'.cells.getD k []).Perm ((s.cells.getD k []).filter fun p => !(wanted behavior p.own && d p))) ∧
      Kept (fun p => !(wanted behavior p.own && d p)) s'.bufs s.bufs ∧
      Kept (fun p => !(wanted behavior p.own && d p)) s'.haloBufs s.haloBufs ∧
      s'.nOwned = s.nOwned - ((ownedOf s).length - (ownedOf s').length : Nat) ∧
      s'.valid = s.valid ∧ s'.steps = s.steps ∧ s'.called = s.called := by
  set q : Particle → Bool := fun p => !(wanted behavior p.own && d p) with hq
  set own := if behavior &&& ibOwned ≠ 0 then nonEmpty s.bufs else [] with hown
  set halo := if behavior &&& ibHalo ≠ 0 then nonEmpty s.haloBufs else [] with hhalo
  have hownsub : own.length ≤ s.bufs.length := by
    rw [hown]; split
    · exact nonEmpty_length _
    · simp
  have hhalosub : halo.length ≤ s.haloBufs.length := by
    rw [hhalo]; split
    · exact nonEmpty_length _
    · simp
  have hownfl : own.flatten = if behavior &&& ibOwned ≠ 0 then s.bufs.flatten else [] := by
    rw [hown]; split
    · exact nonEmpty_flatten _
    · rfl
  have hhalofl : halo.flatten = if behavior &&& ibHalo ≠ 0 then s.haloBufs.flatten else [] := by
    rw [hhalo]; split
    · exact nonEmpty_flatten _
    · rfl
  have hownlen : own.flatten.length ≤ s.bufs.flatten.length := by
    rw [hownfl]; split
    · exact Nat.le_refl _
    · simp
  have hhalolen : halo.flatten.length ≤ s.haloBufs.flatten.length := by
    rw [hhalofl]; split
    · exact Nat.le_refl _
    · simp
  have hfew := h.few
  have hbl := h.bl
  have hhl := h.hl
  have hthr := hc.few
  have hst : LCStorage c.block s.cells (own ++ halo) := by
    refine (h.store hn).storage hc ?_ ?_
    · intro l hl
      have := length_le_flatten hl
      rw [List.flatten_append, List.length_append] at this
      omega
    · rw [List.length_append]; omega
  obtain ⟨vs, t, a1, a2, a3, a4, a5, a6⟩ := lc_delete_loop (behavior := behavior) (fun hx => by rw [hb] at hx; cases hx) hst d
  have hkept : Kept q t.vecs (own ++ halo) := kept_of_getD a2 a4
  have hkown : Kept q (t.vecs.take own.length) own := by
    have := List.forall₂_take own.length hkept
    rw [List.take_left] at this
    exact this
  have hkhalo : Kept q (t.vecs.drop own.length) halo := by
    have := List.forall₂_drop own.length hkept
    rw [List.drop_left] at this
    exact this
  set s' : LHState := { s with
      cells := t.cells
      bufs := if behavior &&& ibOwned ≠ 0 then putBack s.bufs (t.vecs.take own.length) else s.bufs
      haloBufs := if behavior &&& ibHalo ≠ 0 then putBack s.haloBufs (t.vecs.drop own.length) else s.haloBufs
      nOwned := s.nOwned - ((vs.filter fun v => v.after.isNone).filter fun v => decide (v.before.own = .owned)).length
      nHalo := s.nHalo - ((vs.filter fun v => v.after.isNone).filter fun v => decide (v.before.own ≠ .owned)).length } with hs'
  have hqowned : ¬ (behavior &&& ibOwned ≠ 0) → ∀ p : Particle, p.own = .owned → q p = true := by
    intro hx p hp
    have : behavior.testBit 0 = false := by rw [← owned_bit]; simpa using hx
    simp [hq, hp, wanted, this]
  have hqhalo : ¬ (behavior &&& ibHalo ≠ 0) → ∀ p : Particle, p.own = .halo → q p = true := by
    intro hx p hp
    have : behavior.testBit 1 = false := by rw [← halo_bit]; simpa using hx
    simp [hq, hp, wanted, this]
  have hself : ∀ {L : List (List Particle)}, (∀ p ∈ L.flatten, q p = true) → Kept q L L := by
    intro L hL
    refine kept_of_getD rfl fun k => ?_
    rw [List.filter_eq_self.2]
    intro p hp
    exact hL p (mem_flatten_getD'.2 ⟨k, hp⟩)
  have hb1 : Kept q s'.bufs s.bufs := by
    simp only [hs']
    by_cases hx : behavior &&& ibOwned ≠ 0
    · rw [if_pos hx]
      refine kept_putBack ?_
      rw [hown, if_pos hx] at hkown
      rw [hown, if_pos hx]
      exact hkown
    · rw [if_neg hx]
      exact hself fun p hp => hqowned hx p (h.bown p hp)
  have hb2 : Kept q s'.haloBufs s.haloBufs := by
    simp only [hs']
    by_cases hx : behavior &&& ibHalo ≠ 0
    · rw [if_pos hx]
      refine kept_putBack ?_
      have : halo = nonEmpty s.haloBufs := by rw [hhalo, if_pos hx]
      rw [this] at hkhalo
      exact hkhalo
    · rw [if_neg hx]
      exact hself fun p hp => hqhalo hx p (h.hown p hp)
  have hcfl : t.cells.flatten.Perm (s.cells.flatten.filter q) := by
    rw [← flatten_range t.cells, ← flatten_range s.cells, ← flatMap_filter, a1]
    exact List.Perm.flatMap_left _ fun k _ => a3 k
  refine ⟨s', ?_, a1, a3, hb1, hb2, ?_, rfl, rfl, rfl⟩
  · unfold LHState.deleteLoop
    simp only [← hown, ← hhalo]
    rw [a6 _ (by rw [List.flatten_append, List.length_append])]
    rfl
  · have hbown' : ∀ p ∈ s'.bufs.flatten, p.own = .owned := by
      intro p hp
      have := hb1.flatten.subset hp
      exact h.bown p (List.mem_filter.1 this).1
    have hhown' : ∀ p ∈ s'.haloBufs.flatten, p.own = .halo := by
      intro p hp
      have := hb2.flatten.subset hp
      exact h.hown p (List.mem_filter.1 this).1
    rw [ownedOf_eq h.bown h.hown, ownedOf_eq hbown' hhown']
    -- number of deleted owned particles
    have hvfl : t.vecs.flatten.Perm ((own ++ halo).flatten.filter q) := hkept.flatten
    have h7 := (a5.filter isOwned).length_eq
    simp only [List.filter_append, List.length_append] at h7
    have h8 := (hcfl.filter isOwned).length_eq
    have h9 := (hvfl.filter isOwned).length_eq
    have h10 := (hb1.flatten).length_eq
    have hdel : (((vs.filter fun v => v.after.isNone).map Visit.before).filter isOwned).length =
        ((vs.filter fun v => v.after.isNone).filter fun v => decide (v.before.own = .owned)).length := by
      rw [List.filter_map, List.length_map]; rfl
    rw [hdel] at h7
    have hvec : ((own ++ halo).flatten.filter isOwned).length = own.flatten.length ∧
        (((own ++ halo).flatten.filter q).filter isOwned).length = (own.flatten.filter q).length := by
      have o1 : ∀ p ∈ own.flatten, p.own = .owned := by
        intro p hp
        rw [hownfl] at hp
        split at hp
        · exact h.bown p hp
        · cases hp
      have o2 : ∀ p ∈ halo.flatten, p.own = .halo := by
        intro p hp
        rw [hhalofl] at hp
        split at hp
        · exact h.hown p hp
        · cases hp
      rw [List.flatten_append, List.filter_append, List.filter_append, List.filter_append, filter_owned_self o1, filter_halo_nil o2,
        filter_owned_self (fun p hp => o1 p (List.mem_filter.1 hp).1), filter_halo_nil (fun p hp => o2 p (List.mem_filter.1 hp).1)]
      simp
    have hbuf : own.flatten.length + (s.bufs.flatten.filter q).length = (own.flatten.filter q).length + s.bufs.flatten.length := by
      rw [hownfl]
      by_cases hx : behavior &&& ibOwned ≠ 0
      · rw [if_pos hx]; omega
      · rw [if_neg hx, List.filter_eq_self.2 fun p hp => hqowned hx p (h.bown p hp)]; rfl
    rw [List.length_append, List.length_append]
    have hcells' : s'.cells = t.cells := rfl
    rw [hcells']
    have hle : (((s.cells.flatten).filter q).filter isOwned).length ≤ (s.cells.flatten.filter isOwned).length := by
      rw [List.filter_filter, List.filter_congr (q := fun a => q a && isOwned a) (fun x _ => Bool.and_comm _ _), ← List.filter_filter]
      exact List.length_filter_le _ _
    have hle2 : (s.bufs.flatten.filter q).length ≤ s.bufs.flatten.length := List.length_filter_le _ _
    have hno : s'.nOwned = s.nOwned -
        (((vs.filter fun v => v.after.isNone).filter fun v => decide (v.before.own = .owned)).length : Nat) := rfl
    rw [hno]
    congr 2
    rw [h9, hvec.2, List.flatten_append, List.filter_append, List.length_append] at h7
    have hvec1 := hvec.1
    rw [List.flatten_append, List.filter_append, List.length_append] at hvec1
    omega


theorem flatten_set_perm {P : Type} {l : List (List P)} {k : Nat} (hk : k < l.length) (x : List P) :
    ((l.set k x).flatten ++ l.getD k []).Perm (l.flatten ++ x) := by
  induction l generalizing k with
  | nil => simp at hk
  | cons y l ih =>
    cases k with
    | zero =>
      simp only [List.set_cons_zero, List.flatten_cons, List.getD_cons_zero]
      have h1 : (x ++ l.flatten ++ y).Perm (y ++ (x ++ l.flatten)) := List.perm_append_comm
      refine h1.trans ?_
      rw [List.append_assoc]
      exact List.Perm.append_left _ List.perm_append_comm
    | succ k =>
      simp only [List.set_cons_succ, List.flatten_cons, List.getD_cons_succ, List.append_assoc]
      exact (ih (by simpa using hk)).append_left _

theorem getD_lt {P : Type} {l : List (List P)} {k : Nat} {p : P} (hp : p ∈ l.getD k []) : k < l.length := by
  by_contra hc
  rw [List.getD, List.getElem?_eq_none (by omega)] at hp
  cases hp

theorem updateById_spec (p : Particle) (l : List Particle) {l' : List Particle} (h : updateById p l = some l') :
    ∃ a x b, l = a ++ x :: b ∧ x.id = p.id ∧ l' = a ++ p :: b := by
  induction l generalizing l' with
  | nil => simp [updateById] at h
  | cons q qs ih =>
    unfold updateById at h
    by_cases hq : q.id = p.id
    · rw [if_pos hq] at h
      exact ⟨[], q, qs, rfl, hq, (Option.some.inj h).symm⟩
    · rw [if_neg hq] at h
      cases hr : updateById p qs with
      | none => rw [hr] at h; cases h
      | some r =>
        rw [hr] at h
        obtain ⟨a, x, b, e1, e2, e3⟩ := ih hr
        refine ⟨q :: a, x, b, by rw [e1]; rfl, e2, ?_⟩
        rw [← Option.some.inj h, e3]; rfl

theorem updateHaloIn_spec (p : Particle) (cells : List (List Particle)) (ks : List Nat) {cells' : List (List Particle)}
    (h : updateHaloIn cells p ks = some cells') :
    ∃ k ∈ ks, ∃ a x b, cells.getD k [] = a ++ x :: b ∧ x.id = p.id ∧ cells' = cells.set k (a ++ p :: b) := by
  induction ks with
  | nil => simp [updateHaloIn] at h
  | cons k ks ih =>
    unfold updateHaloIn at h
    cases hr : updateById p (cells.getD k []) with
    | some l =>
      rw [hr] at h
      obtain ⟨a, x, b, e1, e2, e3⟩ := updateById_spec p _ hr
      exact ⟨k, List.mem_cons_self, a, x, b, e1, e2, by rw [← Option.some.inj h, e3]⟩
    | none =>
      rw [hr] at h
      obtain ⟨j, hj, rest⟩ := ih h
      exact ⟨j, List.mem_cons_of_mem _ hj, rest⟩

theorem nearby_halo (b : CellBlock) (pos : V3 Rat) (dist : Rat) {k : Nat} (h : k ∈ nearbyHaloCells b pos dist) :
    b.cellCanContainHalo k = true := by
  unfold nearbyHaloCells at h
  simp only [List.mem_append, List.mem_flatMap] at h
  rcases h with h | ⟨x, -, y, -, z, -, h⟩
  · split at h
    · rename_i hc
      rw [List.mem_singleton] at h
      rw [h]; exact hc
    · cases h
  · split at h
    · cases h
    · split at h
      · rename_i hc
        rw [List.mem_singleton] at h
        rw [h]; exact hc
      · cases h

theorem PlaceOk.mono (hc : LHParamsOk c) {m n k : Nat} (hmn : m ≤ n) {p : Particle} (h : PlaceOk c m k p) : PlaceOk c n k p := by
  obtain ⟨old, h1, h2⟩ := h.near
  exact ⟨h.ownedIn, h.haloIn, ⟨old, h1, disp_mono (spt_mono hc hmn) h2⟩, h.haloOut⟩

theorem place_of_pos (hc : LHParamsOk c) (m : Nat) {p : Particle} (ho : p.own = .owned → inBoxB p.pos c.bMin c.bMax = true)
    (hh : p.own = .halo → inBoxB p.pos c.bMin c.bMax = false) : PlaceOk c m (c.block.flatIndexOfPosition p.pos) p := by
  refine ⟨fun h => ?_, fun h => ?_, ⟨p.pos, rfl, Displaced.refl hc.skinPos m p.pos⟩, hh⟩
  · rw [halo_iff_outside hc, ho h]; rfl
  · rw [halo_iff_outside hc, hh h]; rfl

/-! ### The operations -/

theorem add_step (hc : LHParamsOk c) {mv : Moves} {n : Nat} {s : LHState} (h : HInv c mv n s) {t : Nat} (ht : t < c.numThreads)
    (p : Particle) {s' : LHState} (hs : s.addParticle c t p = .ok s') :
    inBoxB p.pos c.bMin c.bMax = true ∧ HInv c mv (n + 1) s' ∧ (ownedOf s').Perm (ownedOf s ++ [{ p with own := .owned }]) := by
  unfold LHState.addParticle at hs
  by_cases hin : inBoxB p.pos c.bMin c.bMax = false
  · rw [if_pos hin] at hs; cases hs
  rw [if_neg hin] at hs
  rw [Bool.not_eq_false] at hin
  have hs := Outcome.ok.inj hs
  have hfew := h.few
  by_cases hv : s.valid = true
  · simp only [if_pos hv] at hs
    subst hs
    have hbf : (bufAdd s.bufs t { p with own := .owned }).flatten.Perm (s.bufs.flatten ++ [{ p with own := .owned }]) :=
      flatten_set_append (by rw [h.bl]; exact ht) _
    have hbown : ∀ q ∈ (bufAdd s.bufs t { p with own := .owned }).flatten, q.own = .owned := by
      intro q hq
      rcases List.mem_append.1 (hbf.subset hq) with hq | hq
      · exact h.bown q hq
      · rw [List.mem_singleton] at hq; rw [hq]
    have hperm : (ownedOf { s with bufs := bufAdd s.bufs t { p with own := .owned }, nOwned := s.nOwned + 1 }).Perm
        (ownedOf s ++ [{ p with own := .owned }]) := by
      rw [ownedOf_eq h.bown h.hown, ownedOf_eq (s := { s with bufs := bufAdd s.bufs t { p with own := .owned }, nOwned := s.nOwned + 1 }) hbown h.hown,
        List.append_assoc]
      exact hbf.append_left _
    refine ⟨hin, ⟨h.len, h.place, ?_, h.hl, hbown, h.hown, ?_, ?_, h.moves, h.fresh⟩, hperm⟩
    · show (bufAdd s.bufs t _).length = _
      unfold bufAdd; rw [List.length_set]; exact h.bl
    · rw [hperm.length_eq, List.length_append]
      show s.nOwned + 1 = _
      rw [h.cnt]; rfl
    · have := hbf.length_eq
      rw [List.length_append] at this
      show s.cells.flatten.length + (bufAdd s.bufs t _).flatten.length + s.haloBufs.flatten.length ≤ _
      rw [this]
      simp only [List.length_singleton]
      omega
  · simp only [if_neg hv] at hs
    rw [Bool.not_eq_true] at hv
    subst hs
    have hcf : (lcAdd c.block s.cells { p with own := .owned }).flatten.Perm (s.cells.flatten ++ [{ p with own := .owned }]) :=
      lcAdd_perm hc h.len _
    have hperm : (ownedOf { s with cells := lcAdd c.block s.cells { p with own := .owned }, nOwned := s.nOwned + 1 }).Perm
        (ownedOf s ++ [{ p with own := .owned }]) := by
      rw [ownedOf_eq h.bown h.hown,
        ownedOf_eq (s := { s with cells := lcAdd c.block s.cells { p with own := .owned }, nOwned := s.nOwned + 1 }) h.bown h.hown]
      refine ((hcf.filter isOwned).append_right _).trans ?_
      rw [List.filter_append, List.append_assoc, List.append_assoc]
      exact List.Perm.append_left _ List.perm_append_comm
    refine ⟨hin, ⟨?_, ?_, h.bl, h.hl, h.bown, h.hown, ?_, ?_, h.moves, fun _ => hv⟩, hperm⟩
    · show (lcAdd c.block s.cells _).length = _
      rw [lcAdd_length]; exact h.len
    · intro k q hq
      rcases mem_set_append hq with hq | ⟨rfl, rfl⟩
      · exact h.place k q hq
      · exact place_of_pos hc _ (fun _ => hin) (fun hx => by cases hx)
    · rw [hperm.length_eq, List.length_append]
      show s.nOwned + 1 = _
      rw [h.cnt]; rfl
    · have := hcf.length_eq
      rw [List.length_append] at this
      show (lcAdd c.block s.cells _).flatten.length + s.bufs.flatten.length + s.haloBufs.flatten.length ≤ _
      rw [this]
      simp only [List.length_singleton]
      omega

theorem addHalo_step (hc : LHParamsOk c) {mv : Moves} {n : Nat} {s : LHState} (h : HInv c mv n s) {t : Nat} {p : Particle}
    (hok : ActionOk c mv s (.addHalo t p)) {s' : LHState} (hs : s.addHaloParticle c t p = .ok s') :
    HInv c mv (n + 1) s' ∧ (ownedOf s').Perm (ownedOf s) := by
  obtain ⟨ht, hrep⟩ := hok
  unfold LHState.addHaloParticle at hs
  by_cases hin : inBoxB p.pos c.bMin c.bMax = true
  · rw [if_pos hin] at hs; cases hs
  rw [if_neg hin] at hs
  rw [Bool.not_eq_true] at hin
  have hs := Outcome.ok.inj hs
  have hfew := h.few
  by_cases hv : s.valid = true
  · simp only [if_pos hv] at hs
    cases hu : updateHaloIn s.cells { p with own := .halo } (nearbyHaloCells c.block p.pos c.skin) with
    | none =>
      simp only [hu] at hs
      subst hs
      have hbf : (bufAdd s.haloBufs t { p with own := .halo }).flatten.Perm (s.haloBufs.flatten ++ [{ p with own := .halo }]) :=
        flatten_set_append (by rw [h.hl]; exact ht) _
      have hhown : ∀ q ∈ (bufAdd s.haloBufs t { p with own := .halo }).flatten, q.own = .halo := by
        intro q hq
        rcases List.mem_append.1 (hbf.subset hq) with hq | hq
        · exact h.hown q hq
        · rw [List.mem_singleton] at hq; rw [hq]
      have heq : ownedOf { s with haloBufs := bufAdd s.haloBufs t { p with own := .halo }, nHalo := s.nHalo + 1 } = ownedOf s := by
        rw [ownedOf_eq h.bown h.hown,
          ownedOf_eq (s := { s with haloBufs := bufAdd s.haloBufs t { p with own := .halo }, nHalo := s.nHalo + 1 }) h.bown hhown]
      refine ⟨⟨h.len, h.place, h.bl, ?_, h.bown, hhown, ?_, ?_, h.moves, h.fresh⟩, by rw [← heq]⟩
      · show (bufAdd s.haloBufs t _).length = _
        unfold bufAdd; rw [List.length_set]; exact h.hl
      · exact h.cnt.trans (by rw [heq])
      · have := hbf.length_eq
        rw [List.length_append] at this
        show s.cells.flatten.length + s.bufs.flatten.length + (bufAdd s.haloBufs t _).flatten.length ≤ _
        rw [this]
        simp only [List.length_singleton]
        omega
    | some cells' =>
      simp only [hu] at hs
      subst hs
      obtain ⟨k, hk, a, x, b, e1, e2, e3⟩ := updateHaloIn_spec _ _ _ hu
      have hkh := nearby_halo _ _ _ hk
      have hx : x ∈ s.cells.getD k [] := by rw [e1]; simp
      have hkl := getD_lt hx
      have hxno : x.own ≠ .owned := by
        intro ho
        have := (h.place k x hx).ownedIn ho
        rw [hkh] at this; cases this
      obtain ⟨old, ho1, ho2⟩ := hrep hv k hkh x hx e2
      have hfl := flatten_set_perm hkl (a ++ { p with own := .halo } :: b)
      rw [← e3, e1] at hfl
      have hlen' : cells'.flatten.length = s.cells.flatten.length := by
        have := hfl.length_eq
        simp only [List.length_append, List.length_cons] at this
        omega
      have hof : (cells'.flatten.filter isOwned).Perm (s.cells.flatten.filter isOwned) := by
        have := hfl.filter isOwned
        rw [List.filter_append, List.filter_append, List.filter_append, List.filter_append,
          List.filter_cons_of_neg (by simp [isOwned, hxno]), List.filter_cons_of_neg (by simp [isOwned])] at this
        exact (List.perm_append_right_iff _).1 this
      have hperm : (ownedOf { s with cells := cells', nHalo := s.nHalo + 1 }).Perm (ownedOf s) := by
        rw [ownedOf_eq h.bown h.hown, ownedOf_eq (s := { s with cells := cells', nHalo := s.nHalo + 1 }) h.bown h.hown]
        exact hof.append_right _
      refine ⟨⟨?_, ?_, h.bl, h.hl, h.bown, h.hown, ?_, ?_, h.moves, h.fresh⟩, hperm⟩
      · show cells'.length = _
        rw [e3, List.length_set]; exact h.len
      · intro j q hq
        have hq' : q ∈ cells'.getD j [] := hq
        rw [e3] at hq'
        by_cases hj : k = j
        · subst hj
          rw [getD_set_self' hkl] at hq'
          rcases List.mem_append.1 hq' with hq' | hq'
          · exact h.place k q (by rw [e1]; exact List.mem_append_left _ hq')
          · rcases List.mem_cons.1 hq' with rfl | hq'
            · exact ⟨fun hx => (by cases hx), fun _ => hkh, ⟨old, ho1, ho2⟩, fun _ => hin⟩
            · exact h.place k q (by rw [e1]; exact List.mem_append_right _ (List.mem_cons_of_mem _ hq'))
        · rw [getD_set_ne' hj] at hq'
          exact h.place j q hq'
      · exact h.cnt.trans (by rw [hperm.length_eq])
      · show cells'.flatten.length + s.bufs.flatten.length + s.haloBufs.flatten.length ≤ _
        omega
  · simp only [if_neg hv] at hs
    rw [Bool.not_eq_true] at hv
    subst hs
    have hcf : (lcAdd c.block s.cells { p with own := .halo }).flatten.Perm (s.cells.flatten ++ [{ p with own := .halo }]) :=
      lcAdd_perm hc h.len _
    have hperm : (ownedOf { s with cells := lcAdd c.block s.cells { p with own := .halo }, nHalo := s.nHalo + 1 }).Perm (ownedOf s) := by
      rw [ownedOf_eq h.bown h.hown,
        ownedOf_eq (s := { s with cells := lcAdd c.block s.cells { p with own := .halo }, nHalo := s.nHalo + 1 }) h.bown h.hown]
      refine ((hcf.filter isOwned).append_right _).trans ?_
      rw [List.filter_append, List.filter_cons_of_neg (by simp [isOwned]), List.filter_nil, List.append_nil]
    refine ⟨⟨?_, ?_, h.bl, h.hl, h.bown, h.hown, ?_, ?_, h.moves, fun _ => hv⟩, hperm⟩
    · show (lcAdd c.block s.cells _).length = _
      rw [lcAdd_length]; exact h.len
    · intro k q hq
      rcases mem_set_append hq with hq | ⟨rfl, rfl⟩
      · exact h.place k q hq
      · exact place_of_pos hc _ (fun hx => by cases hx) (fun _ => hin)
    · exact h.cnt.trans (by rw [hperm.length_eq])
    · have := hcf.length_eq
      rw [List.length_append] at this
      show (lcAdd c.block s.cells _).flatten.length + s.bufs.flatten.length + s.haloBufs.flatten.length ≤ _
      rw [this]
      simp only [List.length_singleton]
      omega

theorem move_step (hc : LHParamsOk c) {mv : Moves} {n : Nat} {s : LHState} (h : HInv c mv n s) {f : Particle → V3 Rat}
    (hok : ActionOk c mv s (.move f)) :
    HInv c ⟨mv.sinceRebuild + 1, true⟩ n (s.move f) ∧ ownedOf (s.move f) = (ownedOf s).map fun p => { p with pos := f p } := by
  obtain ⟨hm, hd⟩ := hok
  set g : Particle → Particle := fun p => if p.own = .owned then { p with pos := f p } else p with hg
  have hgo : ∀ p, (g p).own = p.own := by
    intro p; simp only [hg]; split <;> rfl
  have hbown : ∀ q ∈ (s.move f).bufs.flatten, q.own = .owned := by
    intro q hq
    have : (s.move f).bufs.flatten = s.bufs.flatten.map g := by
      show (s.bufs.map (List.map g)).flatten = _
      rw [List.map_flatten]
    rw [this, List.mem_map] at hq
    obtain ⟨p, hp, rfl⟩ := hq
    rw [hgo]; exact h.bown p hp
  have hhown : ∀ q ∈ (s.move f).haloBufs.flatten, q.own = .halo := by
    intro q hq
    have : (s.move f).haloBufs.flatten = s.haloBufs.flatten.map g := by
      show (s.haloBufs.map (List.map g)).flatten = _
      rw [List.map_flatten]
    rw [this, List.mem_map] at hq
    obtain ⟨p, hp, rfl⟩ := hq
    rw [hgo]; exact h.hown p hp
  have heq : ownedOf (s.move f) = (ownedOf s).map fun p => { p with pos := f p } := by
    have e1 : ownedOf (s.move f) = ((s.cells.flatten ++ s.bufs.flatten ++ s.haloBufs.flatten).map g).filter isOwned := by
      show ((s.cells.map (List.map g)).flatten ++ (s.bufs.map (List.map g)).flatten ++ (s.haloBufs.map (List.map g)).flatten).filter isOwned = _
      rw [List.map_append, List.map_append, List.map_flatten, List.map_flatten, List.map_flatten]
    rw [e1, List.filter_map]
    have e2 : (isOwned ∘ g) = isOwned := by
      funext p; simp only [Function.comp, isOwned, hgo]
    rw [e2]
    show List.map g (List.filter isOwned _) = List.map _ (List.filter isOwned _)
    apply List.map_congr_left
    intro p hp
    rw [List.mem_filter] at hp
    have hp2 : p.own = .owned := by simpa [isOwned] using hp.2
    simp only [hg, if_pos hp2]
  refine ⟨⟨?_, ?_, ?_, ?_, hbown, hhown, ?_, ?_, ?_, h.fresh⟩, heq⟩
  · show (s.cells.map _).length = _
    rw [List.length_map]; exact h.len
  · intro k q hq
    have hq' : q ∈ (s.cells.map (List.map g)).getD k [] := hq
    have e : (s.cells.map (List.map g)).getD k [] = (s.cells.getD k []).map g := by
      rw [List.getD, List.getElem?_map, List.getD]
      cases s.cells[k]? <;> rfl
    rw [e, List.mem_map] at hq'
    obtain ⟨p, hp, rfl⟩ := hq'
    have hpl := h.place k p hp
    by_cases hown : p.own = .owned
    · have hgp : g p = { p with pos := f p } := by simp only [hg, if_pos hown]
      refine ⟨fun _ => hpl.ownedIn hown, fun hx => (by rw [hgo, hown] at hx; cases hx), ?_,
        fun hx => (by rw [hgo, hown] at hx; cases hx)⟩
      obtain ⟨old, o1, o2⟩ := hpl.near
      refine ⟨old, o1, ?_⟩
      have hmem : p ∈ ownedOf s := by
        rw [ownedOf_eq h.bown h.hown]
        exact List.mem_append_left _ (List.mem_filter.2 ⟨mem_flatten_getD'.2 ⟨k, hp⟩, by simp [isOwned, hown]⟩)
      have hdp := hd p hmem
      rw [hgp]
      simp only [Displaced] at o2 hdp ⊢
      push_cast
      have tri : ∀ a b d : Rat, |a - d| ≤ |a - b| + |b - d| := fun a b d => abs_sub_le a b d
      have e1 := tri (f p).x p.pos.x old.x
      have e2 := tri (f p).y p.pos.y old.y
      have e3 := tri (f p).z p.pos.z old.z
      rw [mul_add, mul_one]
      exact ⟨by linarith [o2.1, hdp.1], by linarith [o2.2.1, hdp.2.1], by linarith [o2.2.2, hdp.2.2]⟩
    · have hgp : g p = p := by simp only [hg, if_neg hown]
      rw [hgp]
      exact hpl.mono hc (Nat.le_succ _)
  · show (s.bufs.map _).length = _
    rw [List.length_map]; exact h.bl
  · show (s.haloBufs.map _).length = _
    rw [List.length_map]; exact h.hl
  · show s.nOwned = _
    rw [heq, List.length_map]; exact h.cnt
  · show (s.cells.map (List.map g)).flatten.length + (s.bufs.map (List.map g)).flatten.length + (s.haloBufs.map (List.map g)).flatten.length ≤ n
    rw [← List.map_flatten, ← List.map_flatten, ← List.map_flatten, List.length_map, List.length_map, List.length_map]
    exact h.few
  · have := h.moves
    rw [hm] at this
    show mv.sinceRebuild + 1 ≤ s.steps + 1
    simpa using this

theorem compute_step {mv : Moves} {n : Nat} {s : LHState} (h : HInv c mv n s) :
    HInv c mv n s.compute ∧ (ownedOf s.compute).Perm (ownedOf s) := by
  obtain ⟨b1, b2⟩ := C28_keeps_elements s.bufs
  obtain ⟨b3, b4⟩ := C28_keeps_elements s.haloBufs
  have hbown : ∀ q ∈ s.compute.bufs.flatten, q.own = .owned := fun q hq => h.bown q (b1.subset hq)
  have hhown : ∀ q ∈ s.compute.haloBufs.flatten, q.own = .halo := fun q hq => h.hown q (b3.subset hq)
  have hperm : (ownedOf s.compute).Perm (ownedOf s) := by
    rw [ownedOf_eq h.bown h.hown, ownedOf_eq hbown hhown]
    exact b1.append_left _
  refine ⟨⟨h.len, h.place, b2.trans h.bl, b4.trans h.hl, hbown, hhown, ?_, ?_, h.moves, fun hx => by cases hx⟩, hperm⟩
  · exact h.cnt.trans (by rw [hperm.length_eq])
  · show s.cells.flatten.length + (balanceVectors s.bufs).flatten.length + (balanceVectors s.haloBufs).flatten.length ≤ n
    rw [b1.length_eq, b3.length_eq]; exact h.few

theorem flatten_map_nil {P Q : Type} (l : List P) : (l.map fun _ => ([] : List Q)).flatten = [] := by
  induction l with
  | nil => rfl
  | cons _ _ ih => simpa using ih

theorem deleteAll_step {mv : Moves} {n : Nat} {s : LHState} (h : HInv c mv n s) :
    HInv c mv n s.deleteAll ∧ ownedOf s.deleteAll = [] := by
  have e : ownedOf s.deleteAll = [] := by
    show ((s.cells.map fun _ => []).flatten ++ (s.bufs.map fun _ => []).flatten ++ (s.haloBufs.map fun _ => []).flatten).filter _ = []
    rw [flatten_map_nil, flatten_map_nil, flatten_map_nil]; rfl
  have hn : ∀ L : List (List Particle), ∀ p ∈ (L.map fun _ => ([] : List Particle)).flatten, False := by
    intro L p hp; rw [flatten_map_nil] at hp; cases hp
  refine ⟨⟨?_, ?_, ?_, ?_, fun p hp => (hn _ p hp).elim, fun p hp => (hn _ p hp).elim, ?_, ?_, h.moves, fun _ => rfl⟩, e⟩
  · show (s.cells.map _).length = _
    rw [List.length_map]; exact h.len
  · intro k p hp
    exact (hn s.cells p (mem_flatten_getD'.2 ⟨k, hp⟩)).elim
  · show (s.bufs.map _).length = _
    rw [List.length_map]; exact h.bl
  · show (s.haloBufs.map _).length = _
    rw [List.length_map]; exact h.hl
  · rw [e]; rfl
  · show (s.cells.map fun _ => ([] : List Particle)).flatten.length + (s.bufs.map fun _ => ([] : List Particle)).flatten.length +
      (s.haloBufs.map fun _ => ([] : List Particle)).flatten.length ≤ n
    rw [flatten_map_nil, flatten_map_nil, flatten_map_nil]; simp

theorem delete_step (hc : LHParamsOk c) {mv : Moves} {n : Nat} {s : LHState} (h : HInv c mv n s) (hn : n < 2 ^ 64)
    {behavior : Nat} (hb : behavior.testBit 2 = false) (d : Particle → Bool) :
    ∃ s', s.deleteLoop c behavior d = some s' ∧ HInv c mv n s' ∧
      (ownedOf s').Perm ((ownedOf s).filter fun p => !(wanted behavior p.own && d p)) := by
  obtain ⟨s', h1, h2, h3, h4, h5, h6, h7, h8, h9⟩ := deleteLoop_spec hc h hn hb d
  have hbown : ∀ p ∈ s'.bufs.flatten, p.own = .owned := fun p hp => h.bown p (List.mem_filter.1 (h4.flatten.subset hp)).1
  have hhown : ∀ p ∈ s'.haloBufs.flatten, p.own = .halo := fun p hp => h.hown p (List.mem_filter.1 (h5.flatten.subset hp)).1
  have hcfl : s'.cells.flatten.Perm (s.cells.flatten.filter fun p => !(wanted behavior p.own && d p)) := by
    rw [← flatten_range s'.cells, ← flatten_range s.cells, ← flatMap_filter, h2]
    exact List.Perm.flatMap_left _ fun k _ => h3 k
  have hperm : (ownedOf s').Perm ((ownedOf s).filter fun p => !(wanted behavior p.own && d p)) := by
    rw [ownedOf_eq h.bown h.hown, ownedOf_eq hbown hhown, List.filter_append]
    refine List.Perm.append ?_ h4.flatten
    refine (hcfl.filter isOwned).trans ?_
    rw [List.filter_filter, List.filter_filter]
    rw [List.filter_congr (fun x _ => Bool.and_comm _ _)]
  refine ⟨s', h1, ⟨by rw [h2]; exact h.len, ?_, by rw [h4.length]; exact h.bl, by rw [h5.length]; exact h.hl, hbown, hhown, ?_, ?_, by rw [h8]; exact h.moves, by rw [h7, h9]; exact h.fresh⟩, hperm⟩
  · intro k p hp
    exact h.place k p (List.mem_filter.1 ((h3 k).subset hp)).1
  · rw [h6, h.cnt]
    have : (ownedOf s').length ≤ (ownedOf s).length := by rw [hperm.length_eq]; exact List.length_filter_le _ _
    omega
  · have l1 := hcfl.length_eq
    have l2 := h4.flatten.length_eq
    have l3 := h5.flatten.length_eq
    have l4 := h.few
    have m1 := List.length_filter_le (fun p => !(wanted behavior p.own && d p)) s.cells.flatten
    have m2 := List.length_filter_le (fun p => !(wanted behavior p.own && d p)) s.bufs.flatten
    have m3 := List.length_filter_le (fun p => !(wanted behavior p.own && d p)) s.haloBufs.flatten
    omega


theorem bump_fields (s : LHState) (v : Bool) : (s.bump v).cells = s.cells ∧ (s.bump v).bufs = s.bufs ∧ (s.bump v).haloBufs = s.haloBufs ∧
    (s.bump v).nOwned = s.nOwned ∧ (s.bump v).valid = v ∧ (s.bump v).called = s.called := by
  unfold LHState.bump; split <;> exact ⟨rfl, rfl, rfl, rfl, rfl, rfl⟩

theorem filter_filter_same {l : List Particle} (f : Particle → Bool) : (l.filter f).filter f = l.filter f := by
  rw [List.filter_filter]; simp

theorem filter_filter_not {l : List Particle} (f : Particle → Bool) : ((l.filter f).filter fun p => !f p) = [] := by
  rw [List.filter_filter, List.filter_eq_nil_iff]; intro p _; simp

theorem length_in_out (l : List Particle) (f : Particle → Bool) : (l.filter f).length + (l.filter fun p => !f p).length = l.length := by
  have := (List.filter_append_perm f l).length_eq
  rw [List.length_append] at this; exact this

theorem bufs_purge (bufs : List (List Particle)) (h : ∀ p ∈ bufs.flatten, p.own = .owned) :
    ((bufs.map fun l => purge (bufVerdict c) l 0).map Prod.fst).flatten.Perm (bufs.flatten.filter fun p => inBoxB p.pos c.bMin c.bMax) ∧
    ((bufs.map fun l => purge (bufVerdict c) l 0).flatMap Prod.snd).Perm (bufs.flatten.filter fun p => !inBoxB p.pos c.bMin c.bMax) := by
  induction bufs with
  | nil => exact ⟨List.Perm.refl _, List.Perm.refl _⟩
  | cons l bufs ih =>
    obtain ⟨i1, i2⟩ := ih fun p hp => h p (by rw [List.flatten_cons]; exact List.mem_append_right _ hp)
    have hl : ∀ p ∈ l, p.own = .owned := fun p hp => h p (by rw [List.flatten_cons]; exact List.mem_append_left _ hp)
    obtain ⟨p1, p2⟩ := purge_zero (bufVerdict c) l
    have e1 : l.filter (fun p => decide (bufVerdict c p = .keep)) = l.filter fun p => inBoxB p.pos c.bMin c.bMax := by
      apply List.filter_congr
      intro p hp
      unfold bufVerdict
      rw [if_neg (by rw [hl p hp]; exact fun hx => by cases hx)]
      cases inBoxB p.pos c.bMin c.bMax <;> rfl
    have e2 : l.filter (fun p => decide (bufVerdict c p = .take)) = l.filter fun p => !inBoxB p.pos c.bMin c.bMax := by
      apply List.filter_congr
      intro p hp
      unfold bufVerdict
      rw [if_neg (by rw [hl p hp]; exact fun hx => by cases hx)]
      cases inBoxB p.pos c.bMin c.bMax <;> rfl
    rw [e1] at p1
    rw [e2] at p2
    rw [List.map_cons, List.map_cons, List.flatten_cons, List.flatten_cons, List.filter_append, List.filter_append, List.flatMap_cons]
    exact ⟨p1.append i1, p2.append i2⟩

theorem bufsToContainer_spec (hc : LHParamsOk c) {m : Nat} {cells : List (List Particle)} (hlen : cells.length = c.block.numCells)
    (hp : ∀ k, ∀ p ∈ cells.getD k [], PlaceOk c m k p) {ps : List Particle} (ho : ∀ p ∈ ps, p.own = .owned) :
    (bufsToContainer c cells ps).1.length = c.block.numCells ∧
    (bufsToContainer c cells ps).1.flatten.Perm (cells.flatten ++ ps.filter fun p => inBoxB p.pos c.bMin c.bMax) ∧
    (bufsToContainer c cells ps).2 = ps.filter (fun p => !inBoxB p.pos c.bMin c.bMax) ∧
    (∀ k, ∀ q ∈ (bufsToContainer c cells ps).1.getD k [], PlaceOk c m k q) := by
  have e : bufsToContainer c cells ps = ps.foldl (fun acc p =>
      if inBoxB p.pos c.bMin c.bMax then (lcAdd c.block acc.1 { p with own := .owned }, acc.2) else (acc.1, acc.2 ++ [p])) (cells, []) := by
    unfold bufsToContainer
    apply List.foldl_ext
    intro a p hp
    rw [if_neg (by rw [ho p hp]; exact fun hx => by cases hx)]
  obtain ⟨r1, r2, r3, r4⟩ := readd_spec hc (fun p => { p with own := .owned }) (fun _ => rfl) ps cells [] hlen
  rw [← e] at r1 r2 r3 r4
  refine ⟨r1.trans hlen, ?_, by rw [r3]; rfl, ?_⟩
  · refine r2.trans ?_
    rw [List.map_congr_left (g := id), List.map_id]
    intro p hp
    have := ho p (List.mem_filter.1 hp).1
    cases p
    simp only at this
    rw [this]; rfl
  · intro k q hq
    rcases r4 k q hq with hq | ⟨p, hpm, rfl, hin, rfl⟩
    · exact hp k q hq
    · have := place_of_pos hc m (p := { p with own := .owned }) (fun _ => hin) (fun hx => by cases hx)
      exact this

/-- `updateContainer`, in both modes. -/
theorem update_step (hc : LHParamsOk c) {mv : Moves} {n : Nat} {s : LHState} (h : HInv c mv n s) (hn : n < 2 ^ 64) (expire : Bool)
    {order : List ((V3 Rat × V3 Rat) × Nat)} (ho : order.Perm ((haloVolumes c).flatMap fun v => (List.range c.numThreads).map fun t => (v, t))) :
    ∃ s' out, s.updateContainer c expire order = some (s', out) ∧
      HInv c ⟨if listsStillValid c s expire then mv.sinceRebuild else 0, false⟩ n s' ∧
      (ownedOf s').Perm ((ownedOf s).filter fun p => inBoxB p.pos c.bMin c.bMax) ∧
      out.Perm ((ownedOf s).filter fun p => !inBoxB p.pos c.bMin c.bMax) ∧
      s'.haloBufs.flatten = [] ∧ s'.nHalo = 0 ∧
      (∀ q ∈ s'.cells.flatten, q.own = .halo → ¬ InBox q.pos (c.bMin.addScalar (-c.il)) (c.bMax.addScalar c.il)) ∧
      (listsStillValid c s expire = true → ∀ q ∈ s.cells.flatten, ¬ InBox q.pos (c.bMin.addScalar (-c.il)) (c.bMax.addScalar c.il) →
        q ∈ s'.cells.flatten) ∧ (listsStillValid c s expire = false → ∀ q ∈ s'.cells.flatten, q.own = .owned) := by
  obtain ⟨f1, f2, f3, f4, f5, f6⟩ := bump_fields s (listsStillValid c s expire)
  have hfew := h.few
  have hmoves := h.moves
  by_cases hv : listsStillValid c s expire = true
  · -- cells are kept
    have hval : s.valid = true ∧ s.steps < c.rebuildFrequency := by
      unfold listsStillValid at hv
      rw [Bool.and_eq_true] at hv
      refine ⟨hv.1, ?_⟩
      have h2 := hv.2
      rw [Bool.not_eq_true', Bool.or_eq_false_iff, decide_eq_false_iff_not] at h2
      omega
    have hcalled : s.called = true := by
      by_contra hx
      rw [Bool.not_eq_true] at hx
      rw [h.fresh hx] at hval
      cases hval.1
    have hm1 : mv.sinceRebuild ≤ s.steps + 1 := by
      refine hmoves.trans ?_
      split <;> omega
    have hb : s.bump (listsStillValid c s expire) = { s with valid := true, steps := s.steps + 1, contSteps := s.steps + 1 } := by
      unfold LHState.bump
      rw [hv, if_pos hcalled]
      simp
    obtain ⟨cells', leave, a1, a2, a3, a4, a5, a6, a7, a8, -⟩ := collectLeaving_exact hc (cs := s.steps + 1) hm1 (by omega) ho (h.store hn)
    obtain ⟨p1, p2⟩ := bufs_purge (c := c) s.bufs h.bown
    set cleaned := s.bufs.map fun l => purge (bufVerdict c) l 0 with hcl
    set s' : LHState := { s with
      valid := true, steps := s.steps + 1, contSteps := s.steps + 1, cells := cells', bufs := cleaned.map Prod.fst
      haloBufs := s.haloBufs.map fun _ => []
      nOwned := s.nOwned - ((leave ++ cleaned.flatMap Prod.snd).length : Nat), nHalo := 0 } with hs'
    have hbown : ∀ q ∈ s'.bufs.flatten, q.own = .owned := fun q hq => h.bown q (List.mem_filter.1 (p1.subset hq)).1
    have hhnil : s'.haloBufs.flatten = [] := flatten_map_nil _
    have hhown : ∀ q ∈ s'.haloBufs.flatten, q.own = .halo := fun q hq => by rw [hhnil] at hq; cases hq
    have hperm : (ownedOf s').Perm ((ownedOf s).filter fun p => inBoxB p.pos c.bMin c.bMax) := by
      rw [ownedOf_eq h.bown h.hown, ownedOf_eq hbown hhown, List.filter_append]
      exact a5.append p1
    have hout : (leave ++ cleaned.flatMap Prod.snd).Perm ((ownedOf s).filter fun p => !inBoxB p.pos c.bMin c.bMax) := by
      rw [ownedOf_eq h.bown h.hown, List.filter_append]
      exact a6.append p2
    refine ⟨s', leave ++ cleaned.flatMap Prod.snd, ?_, ?_, hperm, hout, hhnil, rfl, ?_, ?_, fun hx => absurd hv (by rw [hx]; simp)⟩
    · unfold LHState.updateContainer
      simp only [hb, if_true]
      rw [a1]
      rfl
    · rw [if_pos hv]
      refine ⟨a2.len, a2.place, ?_, ?_, hbown, hhown, ?_, ?_, ?_, fun hx => ?_⟩
      · show (cleaned.map Prod.fst).length = _
        rw [hcl, List.length_map, List.length_map]; exact h.bl
      · show (s.haloBufs.map _).length = _
        rw [List.length_map]; exact h.hl
      · show s.nOwned - ((leave ++ cleaned.flatMap Prod.snd).length : Nat) = _
        rw [hperm.length_eq, hout.length_eq, h.cnt]
        have := length_in_out (ownedOf s) fun p => inBoxB p.pos c.bMin c.bMax
        omega
      · show cells'.flatten.length + (cleaned.map Prod.fst).flatten.length + s'.haloBufs.flatten.length ≤ n
        rw [hhnil, p1.length_eq, a3]
        have := List.length_filter_le (fun p => inBoxB p.pos c.bMin c.bMax) s.bufs.flatten
        simp only [List.length_nil]
        omega
      · show mv.sinceRebuild ≤ s.steps + 1 + _
        omega
      · have hx' : s.called = false := hx
        rw [hcalled] at hx'; cases hx'
    · intro q hq ho hnear
      rcases a7 q hq ho with hx | hx
      · exact hx hnear
      · obtain ⟨k, hk⟩ := mem_flatten_getD'.1 hq
        have hk' := h.place k q (a4 k q hk (by rw [ho]; decide))
        have := hk'.haloOut ho
        rw [inBoxB_iff, decide_eq_false_iff_not] at this
        exact this hx
    · intro _ q hq hfar
      obtain ⟨k, hk⟩ := mem_flatten_getD'.1 hq
      exact mem_flatten_getD'.2 ⟨k, a8 k q hk hfar⟩
  · -- cells are rebuilt
    rw [Bool.not_eq_true] at hv
    obtain ⟨b1, b2, b3, b4⟩ := bufsToContainer_spec hc h.len h.place h.bown
    obtain ⟨r1, r2, r3, r4⟩ := lcUpdateRebuild_spec hc b1 b4
    set a := bufsToContainer c s.cells s.bufs.flatten with ha
    set r := lcUpdateRebuild c a.1 with hr
    have hown1 : (a.1.flatten.filter isOwned).Perm (s.cells.flatten.filter isOwned ++ s.bufs.flatten.filter fun p => inBoxB p.pos c.bMin c.bMax) := by
      have := b2.filter isOwned
      rw [List.filter_append, filter_owned_self (l := s.bufs.flatten.filter _) (fun p hp => h.bown p (List.mem_filter.1 hp).1)] at this
      exact this
    set s' : LHState := { s.bump false with
      cells := r.1, bufs := s.bufs.map fun _ => [], haloBufs := s.haloBufs.map fun _ => []
      nOwned := s.nOwned - ((r.2 ++ a.2).length : Nat), nHalo := 0 } with hs'
    have hbnil : s'.bufs.flatten = [] := flatten_map_nil _
    have hhnil : s'.haloBufs.flatten = [] := flatten_map_nil _
    have hbown : ∀ q ∈ s'.bufs.flatten, q.own = .owned := fun q hq => by rw [hbnil] at hq; cases hq
    have hhown : ∀ q ∈ s'.haloBufs.flatten, q.own = .halo := fun q hq => by rw [hhnil] at hq; cases hq
    have hall : ∀ p ∈ r.1.flatten, p.own = .owned := by
      intro p hp
      obtain ⟨k, hk⟩ := mem_flatten_getD'.1 hp
      exact (r4 k p hk).1
    have hrfl : r.1.flatten.Perm ((ownedOf s).filter fun p => inBoxB p.pos c.bMin c.bMax) := by
      refine r2.trans ((hown1.filter _).trans ?_)
      rw [ownedOf_eq h.bown h.hown, List.filter_append, List.filter_append, filter_filter_same]
    have hperm : (ownedOf s').Perm ((ownedOf s).filter fun p => inBoxB p.pos c.bMin c.bMax) := by
      rw [ownedOf_eq hbown hhown, hbnil, List.append_nil]
      have : s'.cells.flatten.filter isOwned = r.1.flatten := filter_owned_self hall
      rw [this]; exact hrfl
    have hout : (r.2 ++ a.2).Perm ((ownedOf s).filter fun p => !inBoxB p.pos c.bMin c.bMax) := by
      rw [ownedOf_eq h.bown h.hown, List.filter_append, b3]
      refine List.Perm.append_right _ ?_
      refine r3.trans ((hown1.filter _).trans ?_)
      rw [List.filter_append, filter_filter_not, List.append_nil]
    refine ⟨s', r.2 ++ a.2, ?_, ?_, hperm, hout, hhnil, rfl, ?_, fun hx => absurd hx (by rw [hv]; simp), fun _ => hall⟩
    · unfold LHState.updateContainer
      simp only [hv]
      obtain ⟨g1, g2, g3, g4, g5, g6⟩ := bump_fields s false
      rw [if_neg (by rw [g5]; simp)]
      simp only [g1, g2, g3, g4]
      rfl
    · rw [if_neg (by rw [hv]; simp)]
      obtain ⟨g1, g2, g3, g4, g5, g6⟩ := bump_fields s false
      refine ⟨r1, fun k p hp => (r4 k p hp).2, ?_, ?_, hbown, hhown, ?_, ?_, Nat.zero_le _, fun _ => g5⟩
      · show (s.bufs.map _).length = _
        rw [List.length_map]; exact h.bl
      · show (s.haloBufs.map _).length = _
        rw [List.length_map]; exact h.hl
      · show s.nOwned - ((r.2 ++ a.2).length : Nat) = _
        rw [hperm.length_eq, hout.length_eq, h.cnt]
        have := length_in_out (ownedOf s) fun p => inBoxB p.pos c.bMin c.bMax
        omega
      · show r.1.flatten.length + s'.bufs.flatten.length + s'.haloBufs.flatten.length ≤ n
        rw [hhnil, hbnil, hrfl.length_eq]
        have h1 := List.length_filter_le (fun p => inBoxB p.pos c.bMin c.bMax) (ownedOf s)
        rw [ownedOf_eq h.bown h.hown, List.length_append] at h1
        have h2 := List.length_filter_le isOwned s.cells.flatten
        rw [ownedOf_eq h.bown h.hown]
        simp only [List.length_nil]
        omega
    · intro q hq hh
      have := hall q hq
      rw [hh] at this; cases this

/-! ### Whole histories -/

theorem wantedStep_perm (a : LHAction) {S S' : List Particle} (hS : S.Perm S') :
    (wantedStep c S a).1.Perm (wantedStep c S' a).1 ∧ (wantedStep c S a).2.Perm (wantedStep c S' a).2 := by
  cases a with
  | add t p =>
    unfold wantedStep
    refine ⟨?_, List.Perm.refl _⟩
    dsimp only
    split
    · exact hS.append_right _
    · exact hS
  | addHalo t p => exact ⟨hS, List.Perm.refl _⟩
  | move f => exact ⟨hS.map _, List.Perm.refl _⟩
  | delete b d =>
    unfold wantedStep
    refine ⟨?_, List.Perm.refl _⟩
    dsimp only
    split
    · exact hS.filter _
    · exact hS
  | update e o => exact ⟨hS.filter _, hS.filter _⟩
  | compute => exact ⟨hS, List.Perm.refl _⟩
  | deleteAll => exact ⟨List.Perm.refl _, List.Perm.refl _⟩

theorem wantedRun_perm (as : List LHAction) : ∀ {S S' : List Particle}, S.Perm S' →
    (wantedRun c S as).1.Perm (wantedRun c S' as).1 ∧ List.Forall₂ List.Perm (wantedRun c S as).2 (wantedRun c S' as).2 := by
  induction as with
  | nil => intro S S' h; exact ⟨h, List.Forall₂.nil⟩
  | cons a as ih =>
    intro S S' h
    obtain ⟨h1, h2⟩ := wantedStep_perm (c := c) a h
    obtain ⟨i1, i2⟩ := ih h1
    exact ⟨i1, List.Forall₂.cons h2 i2⟩

/-- One operation. -/
theorem lhStep_spec (hc : LHParamsOk c) {mv : Moves} {n : Nat} {s : LHState} (h : HInv c mv n s) (hn : n < 2 ^ 64) (a : LHAction)
    (hok : ActionOk c mv s a) :
    ∃ s' out, lhStep c s a = some (s', out) ∧ HInv c (mv.next c s a) (n + 1) s' ∧
      (ownedOf s').Perm (wantedStep c (ownedOf s) a).1 ∧ out.Perm (wantedStep c (ownedOf s) a).2 := by
  have hle : ∀ {mv : Moves} {s : LHState}, HInv c mv n s → HInv c mv (n + 1) s := fun h => { h with few := by have := h.few; omega }
  cases a with
  | add t p =>
    unfold lhStep wantedStep
    dsimp only
    cases hr : s.addParticle c t p with
    | ok s' =>
      obtain ⟨h1, h2, h3⟩ := add_step hc h hok p hr
      refine ⟨s', [], rfl, h2, ?_, List.Perm.refl _⟩
      rw [inBoxB_iff, decide_eq_true_eq] at h1
      rw [if_pos h1]; exact h3
    | throws =>
      refine ⟨s, [], rfl, hle h, ?_, List.Perm.refl _⟩
      have : ¬ InBox p.pos c.bMin c.bMax := by
        intro hx
        unfold LHState.addParticle at hr
        rw [if_neg (by rw [inBoxB_iff, decide_eq_true hx]; simp)] at hr
        cases hr
      rw [if_neg this]
    | ub => exfalso; unfold LHState.addParticle at hr; split at hr <;> cases hr
    | diverges => exfalso; unfold LHState.addParticle at hr; split at hr <;> cases hr
  | addHalo t p =>
    unfold lhStep wantedStep
    dsimp only
    cases hr : s.addHaloParticle c t p with
    | ok s' =>
      obtain ⟨h2, h3⟩ := addHalo_step hc h hok hr
      exact ⟨s', [], rfl, h2, h3, List.Perm.refl _⟩
    | throws => exact ⟨s, [], rfl, hle h, List.Perm.refl _, List.Perm.refl _⟩
    | ub => exfalso; unfold LHState.addHaloParticle at hr; split at hr <;> cases hr
    | diverges => exfalso; unfold LHState.addHaloParticle at hr; split at hr <;> cases hr
  | move f =>
    obtain ⟨h1, h2⟩ := move_step hc h hok
    refine ⟨s.move f, [], rfl, hle h1, ?_, List.Perm.refl _⟩
    rw [h2]; exact List.Perm.refl _
  | delete b d =>
    obtain ⟨s', h1, h2, h3⟩ := delete_step hc h hn hok d
    refine ⟨s', [], ?_, hle h2, ?_, List.Perm.refl _⟩
    · show (s.deleteLoop c b d).map _ = _
      rw [h1]; rfl
    · refine h3.trans ?_
      unfold wantedStep
      dsimp only
      have hmem : ∀ p ∈ ownedOf s, p.own = .owned := by
        intro p hp
        simpa [ownedOf] using (List.mem_filter.1 hp).2
      by_cases hb : b.testBit 0 = true
      · rw [if_pos hb, List.filter_congr]
        intro p hp
        rw [hmem p hp]
        simp only [wanted, hb, Bool.true_and]
      · rw [if_neg hb, List.filter_eq_self.2]
        intro p hp
        rw [hmem p hp]
        rw [Bool.not_eq_true] at hb
        simp only [wanted, hb, Bool.false_and, Bool.not_false]
  | update e o =>
    obtain ⟨s', out, h1, h2, h3, h4, -⟩ := update_step hc h hn e hok
    refine ⟨s', out, h1, hle h2, ?_, ?_⟩
    · refine h3.trans ?_
      unfold wantedStep
      dsimp only
      rw [List.filter_congr (fun p _ => inBoxB_iff _ _ _)]
    · refine h4.trans ?_
      unfold wantedStep
      dsimp only
      rw [List.filter_congr]
      intro p _
      rw [inBoxB_iff]; simp
  | compute =>
    obtain ⟨h1, h2⟩ := compute_step h
    exact ⟨s.compute, [], rfl, hle h1, h2, List.Perm.refl _⟩
  | deleteAll =>
    obtain ⟨h1, h2⟩ := deleteAll_step h
    refine ⟨s.deleteAll, [], rfl, hle h1, ?_, List.Perm.refl _⟩
    rw [h2]; exact List.Perm.refl _

theorem lhRun_spec (hc : LHParamsOk c) (as : List LHAction) : ∀ {mv : Moves} {n : Nat} {s : LHState}, HInv c mv n s →
    n + as.length < 2 ^ 64 → HistoryOk c mv s as →
    ∃ s' outs, lhRun c s as = some (s', outs) ∧ (∃ mv', HInv c mv' (n + as.length) s') ∧
      (ownedOf s').Perm (wantedRun c (ownedOf s) as).1 ∧ List.Forall₂ List.Perm outs (wantedRun c (ownedOf s) as).2 := by
  induction as with
  | nil =>
    intro mv n s h hn _
    exact ⟨s, [], rfl, ⟨mv, h⟩, List.Perm.refl _, List.Forall₂.nil⟩
  | cons a as ih =>
    intro mv n s h hn hok
    rw [List.length_cons] at hn
    obtain ⟨s1, out, a1, a2, a3, a4⟩ := lhStep_spec hc h (by omega) a hok.1
    obtain ⟨s2, outs, b1, ⟨mv', b2⟩, b3, b4⟩ := ih a2 (by omega) (hok.2 _ a1)
    obtain ⟨w1, w2⟩ := wantedRun_perm (c := c) as a3
    refine ⟨s2, out :: outs, ?_, ⟨mv', ?_⟩, b3.trans w1, List.Forall₂.cons a4 ?_⟩
    · unfold lhRun
      rw [a1]
      show (lhRun c s1 as).map _ = _
      rw [b1]; rfl
    · rw [List.length_cons, show n + (as.length + 1) = n + 1 + as.length by omega]; exact b2
    · have : ∀ {A B C : List (List Particle)}, List.Forall₂ List.Perm A B → List.Forall₂ List.Perm B C → List.Forall₂ List.Perm A C := by
        intro A B C hab
        induction hab generalizing C with
        | nil => intro hbc; cases hbc; exact List.Forall₂.nil
        | cons h1 _ ih => intro hbc; cases hbc with | cons g1 g2 => exact List.Forall₂.cons (h1.trans g1) (ih g2)
      exact this b4 w2

theorem init_inv (c : LHParams) : HInv c ⟨0, false⟩ 0 (LHState.init c) := by
  have hn : ∀ m, (List.replicate m ([] : List Particle)).flatten = [] := by
    intro m
    induction m with
    | zero => rfl
    | succ m ih => rw [List.replicate_succ, List.flatten_cons, ih]; rfl
  have hz : ∀ m, ∀ p ∈ (List.replicate m ([] : List Particle)).flatten, False := fun m p hp => by rw [hn] at hp; cases hp
  refine ⟨by simp [LHState.init], ?_, by simp [LHState.init], by simp [LHState.init], fun p hp => (hz _ p hp).elim, fun p hp => (hz _ p hp).elim, ?_, ?_, Nat.zero_le _, fun _ => rfl⟩
  · intro k p hp
    exact (hz c.block.numCells p (mem_flatten_getD'.2 ⟨k, hp⟩)).elim
  · show (0 : Int) = ((((List.replicate _ []).flatten ++ (List.replicate _ []).flatten ++ (List.replicate _ []).flatten).filter _).length : Nat)
    rw [hn, hn]; rfl
  · show (List.replicate _ []).flatten.length + (List.replicate _ []).flatten.length + (List.replicate _ []).flatten.length ≤ 0
    rw [hn, hn]; simp

end Verif
