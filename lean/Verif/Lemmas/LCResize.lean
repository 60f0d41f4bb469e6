import Verif.Model.ResizeBox
import Verif.Lemmas.LCHistory
/-!
Lemmas about regenerating and resizing the container.
-/
namespace Verif
open Spec

variable {c : LHParams}

theorem bind_ok_iff {α β : Type} (a : α) (f : α → Outcome β) : (Outcome.ok a).bind f = f a := rfl

/-- A loop over all owned and halo particles that replaces what it visits. -/
theorem full_loop (hc : LHParamsOk c) {m : Nat} {cells : List (List Particle)} (hs : StoreOk c m cells) (g : Particle → Particle) :
    ∃ (vs : List (Visit Particle)) (t : IterState Particle),
      (∀ n, cells.flatten.length + 1 ≤ n → iterLoop (lcIterCfg c.block (ibOwned ||| ibHalo) 1 0) (fun _ p => some (g p)) n []
        (iterBegin (lcIterCfg c.block (ibOwned ||| ibHalo) 1 0) cells []) = some (vs, t)) ∧
      t.cells.length = cells.length ∧
      (∀ k, (t.cells.getD k []).Perm (((cells.getD k []).filter fun p => !decide (p.own ≠ .dummy)) ++
        ((cells.getD k []).filter fun p => decide (p.own ≠ .dummy)).map g)) ∧
      (vs.map Visit.before).Perm (cells.flatten.filter fun p => decide (p.own ≠ .dummy)) := by
  have hst := hs.storage hc (vecs := []) (by simp) (by decide)
  have hb : NoDummyOrAll (ibOwned ||| ibHalo) := fun hx => absurd hx (by decide)
  obtain ⟨vs, t, h1, h2, h3, h4⟩ := inplace_loop (lcIterCfg c.block (ibOwned ||| ibHalo) 1 0) g (lc_goodStorage hst hb 1 0 Nat.one_pos)
  have hful : ∀ p : Particle, (lcIterCfg c.block (ibOwned ||| ibHalo) 1 0).ful p = decide (p.own ≠ .dummy) := by
    intro p
    show fulfillsOwnership (ibOwned ||| ibHalo) p.own = _
    rw [fulfills_wanted]
    cases p.own <;> decide
  have hcong : ∀ k, ∀ p ∈ cells.getD k [], ((lcIterCfg c.block (ibOwned ||| ibHalo) 1 0).ful p &&
      (lcIterCfg c.block (ibOwned ||| ibHalo) 1 0).mine k) = decide (p.own ≠ .dummy) := by
    intro k p hp
    rw [hful]
    by_cases hd : p.own = .dummy
    · simp [hd]
    · rw [lc_mine hb hst hp (by rw [← fulfills_wanted]; have := hful p; rw [decide_eq_true hd] at this; exact this)]
      simp
  refine ⟨vs, t, h1, h2, ?_, ?_⟩
  · intro k
    refine (h3 k).trans ?_
    rw [List.filter_congr (fun p hp => hcong k p hp), List.filter_congr (p := fun p => !((lcIterCfg c.block (ibOwned ||| ibHalo) 1 0).ful p &&
      (lcIterCfg c.block (ibOwned ||| ibHalo) 1 0).mine k)) (fun p hp => by rw [hcong k p hp])]
  · refine h4.trans ?_
    rw [← flatten_range cells, ← flatMap_filter]
    exact flatMap_perm_congr fun k _ => by rw [List.filter_congr (fun p hp => hcong k p hp)]

/-- Adding particles to a container one by one. -/
theorem containerAdd_all (hc : LHParamsOk c) (ps : List Particle) : ∀ {cells : List (List Particle)},
    cells.length = c.block.numCells → (∀ k, ∀ p ∈ cells.getD k [], PlaceOk c 0 k p) →
    (∀ p ∈ ps, p.own = .owned ∧ inBoxB p.pos c.bMin c.bMax = true ∨ p.own = .halo ∧ inBoxB p.pos c.bMin c.bMax = false) →
    ∃ cells' : List (List Particle), ps.foldl (fun (acc : Outcome (List (List Particle))) p => acc.bind fun cs => containerAdd c cs p) (.ok cells) = .ok cells' ∧
      cells'.length = c.block.numCells ∧ (∀ k, ∀ p ∈ cells'.getD k [], PlaceOk c 0 k p) ∧ cells'.flatten.Perm (cells.flatten ++ ps) := by
  induction ps with
  | nil => intro cells hl hp _; exact ⟨cells, rfl, hl, hp, by simp⟩
  | cons p ps ih =>
    intro cells hl hpl hps
    have h1 : containerAdd c cells p = .ok (lcAdd c.block cells p) := by
      unfold containerAdd
      rcases hps p (List.mem_cons_self ..) with ⟨ho, hb⟩ | ⟨ho, hb⟩
      · rw [if_pos ho, if_pos hb]
      · rw [if_neg (by rw [ho]; decide), if_neg (by rw [hb]; decide)]
    have hpp : PlaceOk c 0 (c.block.flatIndexOfPosition p.pos) p := by
      rcases hps p (List.mem_cons_self ..) with ⟨ho, hb⟩ | ⟨ho, hb⟩
      · exact place_of_pos hc 0 (fun _ => hb) (fun hx => by rw [ho] at hx; cases hx)
      · exact place_of_pos hc 0 (fun hx => by rw [ho] at hx; cases hx) (fun _ => hb)
    have hk : c.block.flatIndexOfPosition p.pos < cells.length := by rw [hl]; exact flatIndex_lt hc.box _
    obtain ⟨cells', a1, a2, a3, a4⟩ := ih (cells := lcAdd c.block cells p) (by rw [lcAdd_length]; exact hl) (by
      intro k q hq
      unfold lcAdd at hq
      by_cases hkk : c.block.flatIndexOfPosition p.pos = k
      · subst hkk
        rw [getD_set_self' hk] at hq
        rcases List.mem_append.1 hq with hq | hq
        · exact hpl _ q hq
        · rw [List.mem_singleton] at hq; rw [hq]; exact hpp
      · rw [getD_set_ne' hkk] at hq
        exact hpl k q hq) (fun q hq => hps q (List.mem_cons_of_mem _ hq))
    refine ⟨cells', ?_, a2, a3, a4.trans ?_⟩
    · rw [List.foldl_cons, bind_ok_iff, h1]; exact a1
    · refine ((lcAdd_perm hc hl p).append_right _).trans ?_
      rw [List.append_assoc]; exact List.Perm.refl _

theorem replicate_flatten (n : Nat) : (List.replicate n ([] : List Particle)).flatten = [] := by
  induction n with
  | zero => rfl
  | succ n ih => rw [List.replicate_succ, List.flatten_cons, ih]; rfl

/-- Regenerating a container keeps the owned and halo particles if they are on the right side of the new box. -/
theorem regenerate_spec {c' : LHParams} (hc : LHParamsOk c) (hc' : LHParamsOk c') {m : Nat} {cells : List (List Particle)}
    (hs : StoreOk c m cells)
    (hp : ∀ p ∈ cells.flatten, p.own = .owned ∧ inBoxB p.pos c'.bMin c'.bMax = true ∨
      p.own = .halo ∧ inBoxB p.pos c'.bMin c'.bMax = false ∨ p.own = .dummy) :
    ∃ cells', regenerate c c' cells = .ok cells' ∧ cells'.length = c'.block.numCells ∧
      (∀ k, ∀ p ∈ cells'.getD k [], PlaceOk c' 0 k p) ∧ cells'.flatten.Perm (cells.flatten.filter fun p => decide (p.own ≠ .dummy)) := by
  obtain ⟨vs, t, h1, -, -, h4⟩ := full_loop hc hs (fun p => p)
  obtain ⟨cells', a1, a2, a3, a4⟩ := containerAdd_all hc' (vs.map Visit.before) (cells := List.replicate c'.block.numCells []) (by simp)
    (fun k p hp => by
      have : p ∈ (List.replicate c'.block.numCells ([] : List Particle)).flatten := mem_flatten_getD'.2 ⟨k, hp⟩
      rw [replicate_flatten] at this; cases this)
    (fun p hpv => by
      have := h4.subset hpv
      rw [List.mem_filter, decide_eq_true_eq] at this
      rcases hp p this.1 with h | h | h
      · exact .inl h
      · exact .inr h
      · exact absurd h this.2)
  refine ⟨cells', ?_, a2, a3, a4.trans ?_⟩
  · unfold regenerate
    simp only [h1 _ (Nat.le_refl _)]
    exact a1
  · rw [replicate_flatten, List.nil_append]; exact h4

/-- The parameters with another box. -/
abbrev LHParams.withBox (c : LHParams) (lo hi : V3 Rat) : LHParams := { c with bMin := lo, bMax := hi }

/-- `resizeBox` in a state without halo particles in the container. -/
theorem resize_step (hc : LHParamsOk c) {mv : Moves} {n : Nat} {s : LHState} (h : HInv c mv n s) (hn : n < 2 ^ 64) {lo hi : V3 Rat}
    (hc' : LHParamsOk (c.withBox lo hi)) (hdiff : ¬ (c.bMin = lo ∧ c.bMax = hi)) (hh : ∀ p ∈ s.cells.flatten, p.own ≠ .halo) :
    ∃ s' out, s.resizeBox c lo hi = .ok (c.withBox lo hi, s', out) ∧ HInv (c.withBox lo hi) ⟨0, mv.sinceUpdate⟩ n s' ∧
      out.Perm ((s.cells.flatten.filter isOwned).filter fun p => !inBoxB p.pos lo hi) ∧
      s'.cells.flatten.Perm ((s.cells.flatten.filter isOwned).filter fun p => inBoxB p.pos lo hi) ∧
      s'.bufs = s.bufs ∧ s'.haloBufs = s.haloBufs ∧
      (ownedOf s' ++ out).Perm (ownedOf s) := by
  have hpos : ¬ (hi.x ≤ lo.x ∨ hi.y ≤ lo.y ∨ hi.z ≤ lo.z) := by
    have h1 := hc'.box.ilPos
    have h2 := hc'.box.wx
    have h3 := hc'.box.wy
    have h4 := hc'.box.wz
    simp only [LHParams.withBox] at h1 h2 h3 h4
    rintro (hx | hx | hx) <;> linarith
  have hfew := h.few
  have hst : StoreOk c mv.sinceRebuild s.cells := ⟨h.len, h.place, by omega⟩
  set g : Particle → Particle := fun p => if inBoxB p.pos lo hi = false then { p with own := .dummy } else p with hg
  have hbody : resizeBody lo hi = fun _ p => some (g p) := by
    funext _ p
    simp only [resizeBody, hg]
    split <;> rfl
  obtain ⟨vs, t, h1, h2, h3, h4⟩ := full_loop hc hst g
  have hnd : ∀ p ∈ s.cells.flatten, decide (p.own ≠ .dummy) = isOwned p := by
    intro p hp
    have := hh p hp
    unfold isOwned
    cases ho : p.own with
    | owned => rfl
    | halo => exact absurd ho this
    | dummy => rfl
  have h4' : (vs.map Visit.before).Perm (s.cells.flatten.filter isOwned) := by
    refine h4.trans ?_
    rw [List.filter_congr hnd]
  have hseen : ((vs.map Visit.before).any fun p => decide (p.own ≠ .owned)) = false := by
    rw [List.any_eq_false]
    intro p hp
    have := (List.mem_filter.1 (h4'.subset hp)).2
    simpa [isOwned] using this
  have htm : ∀ k, ∀ q ∈ t.cells.getD k [], q.own = .dummy ∧ (∃ p ∈ s.cells.getD k [], q.pos = p.pos) ∨
      q ∈ s.cells.getD k [] ∧ q.own = .owned ∧ inBoxB q.pos lo hi = true := by
    intro k q hq
    rcases List.mem_append.1 ((h3 k).subset hq) with hq | hq
    · rw [List.mem_filter] at hq
      refine .inl ⟨by simpa using hq.2, q, hq.1, rfl⟩
    · rw [List.mem_map] at hq
      obtain ⟨p, hp, rfl⟩ := hq
      rw [List.mem_filter] at hp
      have hpo : p.own = .owned := by
        have := hnd p (mem_flatten_getD'.2 ⟨k, hp.1⟩)
        rw [hp.2] at this
        simpa [isOwned] using this.symm
      simp only [hg]
      by_cases hb : inBoxB p.pos lo hi = false
      · rw [if_pos hb]; exact .inl ⟨rfl, p, hp.1, rfl⟩
      · rw [if_neg hb]; exact .inr ⟨hp.1, hpo, by simpa using hb⟩
  have hstt : StoreOk c mv.sinceRebuild t.cells := by
    refine ⟨by rw [h2]; exact h.len, ?_, ?_⟩
    · intro k q hq
      rcases htm k q hq with ⟨hd, p, hp, hpp⟩ | ⟨hq', -, -⟩
      · refine ⟨?_, ?_, by rw [hpp]; exact (h.place k p hp).near, ?_⟩ <;> (intro hx; rw [hd] at hx; cases hx)
      · exact h.place k q hq'
    · have : t.cells.flatten.length = s.cells.flatten.length := by
        rw [← flatten_range t.cells, ← flatten_range s.cells, List.length_flatMap, List.length_flatMap, h2]
        congr 1
        apply List.map_congr_left
        intro k _
        rw [(h3 k).length_eq, List.length_append, List.length_map, ← List.length_append]
        rw [List.length_append, Nat.add_comm, ← List.length_append]
        exact (List.filter_append_perm _ _).length_eq
      omega
  obtain ⟨cells', r1, r2, r3, r4⟩ := regenerate_spec (c' := c.withBox lo hi) hc hc' hstt (by
    intro q hq
    obtain ⟨k, hk⟩ := mem_flatten_getD'.1 hq
    rcases htm k q hk with ⟨hd, -⟩ | ⟨-, ho, hb⟩
    · exact .inr (.inr hd)
    · exact .inl ⟨ho, hb⟩)
  have htf : (t.cells.flatten.filter fun p => decide (p.own ≠ .dummy)).Perm
      ((s.cells.flatten.filter isOwned).filter fun p => inBoxB p.pos lo hi) := by
    rw [← flatten_range t.cells, ← flatten_range s.cells, ← flatMap_filter, ← flatMap_filter, ← flatMap_filter, h2]
    refine flatMap_perm_congr fun k _ => ?_
    refine ((h3 k).filter _).trans ?_
    rw [List.filter_append, List.filter_filter]
    have e0 : (s.cells.getD k []).filter (fun a => decide (a.own ≠ .dummy) && !decide (a.own ≠ .dummy)) = [] := by
      rw [List.filter_eq_nil_iff]; intro a _; simp
    rw [e0, List.nil_append, List.filter_map]
    rw [List.filter_congr (q := isOwned) (fun p hp => hnd p (mem_flatten_getD'.2 ⟨k, hp⟩))]
    have e1 : ((s.cells.getD k []).filter isOwned).filter ((fun a => decide (a.own ≠ .dummy)) ∘ g) =
        ((s.cells.getD k []).filter isOwned).filter fun p => inBoxB p.pos lo hi := by
      apply List.filter_congr
      intro p hp
      have ho : p.own = .owned := by simpa [isOwned] using (List.mem_filter.1 hp).2
      simp only [Function.comp, hg]
      by_cases hb : inBoxB p.pos lo hi = false
      · simp [hb]
      · simp only [Bool.not_eq_false] at hb
        simp [hb, ho]
    rw [e1]
    have e2 : ∀ p ∈ ((s.cells.getD k []).filter isOwned).filter (fun p => inBoxB p.pos lo hi), g p = id p := by
      intro p hp
      have hb := (List.mem_filter.1 hp).2
      simp only [hg, hb]; rfl
    rw [List.map_congr_left e2, List.map_id]
  have hcells := r4.trans htf
  set out := (vs.map Visit.before).filter fun p => !inBoxB p.pos lo hi with hout
  set s' : LHState := { s with cells := cells', contSteps := 0, valid := false, nOwned := s.nOwned - out.length } with hs'
  have ho1 : out.Perm ((s.cells.flatten.filter isOwned).filter fun p => !inBoxB p.pos lo hi) := h4'.filter _
  have hcown : cells'.flatten.filter isOwned = cells'.flatten := by
    rw [List.filter_eq_self]
    intro p hp
    exact (List.mem_filter.1 (List.mem_filter.1 (hcells.subset hp)).1).2
  have hall : (ownedOf s' ++ out).Perm (ownedOf s) := by
    rw [ownedOf_eq h.bown h.hown, ownedOf_eq (s := s') h.bown h.hown]
    show (cells'.flatten.filter isOwned ++ s.bufs.flatten ++ out).Perm _
    rw [hcown, List.append_assoc]
    refine (List.Perm.append_left _ List.perm_append_comm).trans ?_
    rw [← List.append_assoc]
    refine List.Perm.append_right _ ?_
    exact (hcells.append ho1).trans (List.filter_append_perm _ _)
  refine ⟨s', out, ?_, ?_, ho1, hcells, rfl, rfl, hall⟩
  · unfold LHState.resizeBox
    rw [if_neg hdiff, if_neg hpos]
    simp only [hbody, h1 _ (Nat.le_refl _), hseen, Bool.false_eq_true, if_false, r1, bind_ok_iff]
    rfl
  · refine ⟨r2, r3, h.bl, h.hl, h.bown, h.hown, ?_, ?_, Nat.zero_le _, fun _ => rfl⟩
    · show s.nOwned - (out.length : Int) = _
      rw [h.cnt, ← hall.length_eq, List.length_append]
      push_cast; ring
    · have l1 := hcells.length_eq
      have l2 : ((s.cells.flatten.filter isOwned).filter fun p => inBoxB p.pos lo hi).length ≤ s.cells.flatten.length :=
        (List.length_filter_le _ _).trans (List.length_filter_le _ _)
      show cells'.flatten.length + s.bufs.flatten.length + s.haloBufs.flatten.length ≤ n
      omega

end Verif
