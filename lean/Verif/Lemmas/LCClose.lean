import Verif.Lemmas.LCHistory
import Verif.Lemmas.Skin
import Verif.Spec.CloseHistory
/-! Histories of particle operations: how far stored particles are from where they were sorted in. -/
namespace Verif
open Spec

variable {c : LHParams}

/-- Every stored particle is near a position that belongs to its cell. -/
structure CloseInv (c : LHParams) (mv : Moves) (s : LHState) : Prop where
  near : ∀ k, ∀ p ∈ s.cells.getD k [], ∃ old, c.block.flatIndexOfPosition old = k ∧
    HalfApart (c.skinPerTimestep * mv.sinceRebuild) p.pos old
  steps : s.steps ≤ max 1 c.rebuildFrequency

theorem halfApart_refl (m : Rat) (p : V3 Rat) : HalfApart m p p := by
  unfold HalfApart distSq
  have := mul_self_nonneg m
  norm_num
  exact this

theorem halfApart_trans {m n : Rat} (hm : 0 ≤ m) (hn : 0 ≤ n) {p q r : V3 Rat} (h1 : HalfApart m p q) (h2 : HalfApart n q r) :
    HalfApart (m + n) p r := by
  unfold HalfApart at *
  have := distSq_triangle (A := m / 2) (B := n / 2) (by linarith) (by linarith) (p := p) (q := q) (r := r) (by linarith) (by linarith)
  linarith

theorem halfApart_mono {m n : Rat} (hm : 0 ≤ m) (h : m ≤ n) {p q : V3 Rat} (h1 : HalfApart m p q) : HalfApart n p q := by
  unfold HalfApart at *
  nlinarith

theorem init_close (c : LHParams) : CloseInv c ⟨0, false⟩ (LHState.init c) := by
  refine ⟨fun k p hp => ?_, Nat.zero_le _⟩
  have : p ∈ (List.replicate c.block.numCells ([] : List Particle)).flatten := mem_flatten_getD'.2 ⟨k, hp⟩
  rw [List.mem_flatten] at this
  obtain ⟨l, hl, hp⟩ := this
  rw [(List.mem_replicate.1 hl).2] at hp
  cases hp

theorem close_add {mv : Moves} {s s' : LHState} {cells : List (List Particle)} (h : CloseInv c mv s) (q : Particle)
    (hcells : s'.cells = cells) (hc : cells = lcAdd c.block s.cells q ∨ cells = s.cells) (hst : s'.steps = s.steps) : CloseInv c mv s' := by
  refine ⟨fun k p hp => ?_, by rw [hst]; exact h.steps⟩
  rw [hcells] at hp
  rcases hc with rfl | rfl
  · rcases mem_set_append hp with hp | ⟨rfl, rfl⟩
    · exact h.near k p hp
    · exact ⟨p.pos, rfl, halfApart_refl _ _⟩
  · exact h.near k p hp

theorem close_step (hc : LHParamsOk c) {mv : Moves} {n : Nat} {s : LHState} (h : HInv c mv n s) (he : CloseInv c mv s) (hn : n < 2 ^ 64)
    (a : LHAction) (hok : ActionOk c mv s a) (hcl : ActionClose c mv s a) {s' : LHState} {out : List Particle}
    (hs : lhStep c s a = some (s', out)) : CloseInv c (mv.next c s a) s' := by
  cases a with
  | add t p =>
    unfold lhStep at hs
    dsimp only at hs
    unfold LHState.addParticle at hs
    split at hs
    · rename_i s1 hr
      split at hr
      · cases hr
      · cases hs
        have hr := Outcome.ok.inj hr
        by_cases hv : s.valid = true
        · simp only [if_pos hv] at hr
          subst hr
          exact close_add (s := s) he p rfl (.inr rfl) rfl
        · simp only [if_neg hv] at hr
          subst hr
          exact close_add (s := s) he _ rfl (.inl rfl) rfl
    · cases hs; exact he
    · cases hs
  | addHalo t p =>
    unfold lhStep at hs
    dsimp only at hs
    unfold LHState.addHaloParticle at hs
    split at hs
    · rename_i s1 hr
      split at hr
      · cases hr
      · cases hs
        have hr := Outcome.ok.inj hr
        by_cases hv : s.valid = true
        · simp only [if_pos hv] at hr
          cases hu : updateHaloIn s.cells { p with own := .halo } (nearbyHaloCells c.block p.pos c.skin) with
          | none =>
            simp only [hu] at hr
            subst hr
            exact close_add (s := s) he p rfl (.inr rfl) rfl
          | some cells' =>
            simp only [hu] at hr
            subst hr
            obtain ⟨k, hk, a, x, b, e1, e2, e3⟩ := updateHaloIn_spec _ _ _ hu
            have hkh := nearby_halo _ _ _ hk
            have hx : x ∈ s.cells.getD k [] := by rw [e1]; simp
            have hkl := getD_lt hx
            refine ⟨fun j q hq => ?_, he.steps⟩
            have hq' : q ∈ cells'.getD j [] := hq
            rw [e3] at hq'
            by_cases hj : k = j
            · subst hj
              rw [getD_set_self' hkl] at hq'
              rcases List.mem_append.1 hq' with hq' | hq'
              · exact he.near k q (by rw [e1]; exact List.mem_append_left _ hq')
              · rcases List.mem_cons.1 hq' with rfl | hq'
                · exact hcl hv k hkh x hx e2
                · exact he.near k q (by rw [e1]; exact List.mem_append_right _ (List.mem_cons_of_mem _ hq'))
            · rw [getD_set_ne' hj] at hq'
              exact he.near j q hq'
        · simp only [if_neg hv] at hr
          subst hr
          exact close_add (s := s) he _ rfl (.inl rfl) rfl
    · cases hs; exact he
    · cases hs
  | move f =>
    cases hs
    refine ⟨fun k q hq => ?_, he.steps⟩
    set g : Particle → Particle := fun p => if p.own = .owned then { p with pos := f p } else p with hg
    have hq' : q ∈ (s.cells.map (List.map g)).getD k [] := hq
    have e : (s.cells.map (List.map g)).getD k [] = (s.cells.getD k []).map g := by
      rw [List.getD, List.getElem?_map, List.getD]
      cases s.cells[k]? <;> rfl
    rw [e, List.mem_map] at hq'
    obtain ⟨p, hp, rfl⟩ := hq'
    obtain ⟨old, o1, o2⟩ := he.near k p hp
    refine ⟨old, o1, ?_⟩
    have hsp := hc.skinPos
    have hm : 0 ≤ c.skinPerTimestep * mv.sinceRebuild := by positivity
    have e2 : c.skinPerTimestep * ((mv.next c s (.move f)).sinceRebuild : Nat) = c.skinPerTimestep + c.skinPerTimestep * mv.sinceRebuild := by
      show c.skinPerTimestep * ((mv.sinceRebuild + 1 : Nat) : Rat) = _
      push_cast; ring
    rw [e2]
    by_cases hown : p.own = .owned
    · have hgp : g p = { p with pos := f p } := by simp only [hg, if_pos hown]
      rw [hgp]
      have hmem : p ∈ ownedOf s := by
        rw [ownedOf_eq h.bown h.hown]
        exact List.mem_append_left _ (List.mem_filter.2 ⟨mem_flatten_getD'.2 ⟨k, hp⟩, by simp [isOwned, hown]⟩)
      exact halfApart_trans hsp hm (hcl p hmem) o2
    · have hgp : g p = p := by simp only [hg, if_neg hown]
      rw [hgp]
      exact halfApart_mono hm (by linarith) o2
  | delete b d =>
    obtain ⟨s1, h1, h2, h3, -, -, -, -, h8, -⟩ := deleteLoop_spec hc h hn hok d
    have : s1 = s' := by
      have hs : (s.deleteLoop c b d).map (fun s' => (s', ([] : List Particle))) = some (s', out) := hs
      rw [h1] at hs
      cases hs; rfl
    subst this
    exact ⟨fun k p hp => he.near k p (List.mem_filter.1 ((h3 k).subset hp)).1, by rw [h8]; exact he.steps⟩
  | update e o =>
    have hs : s.updateContainer c e o = some (s', out) := hs
    obtain ⟨s1, out1, u1, u2, -⟩ := update_step hc h hn e hok
    rw [hs] at u1
    cases u1
    by_cases hv : listsStillValid c s e = true
    · have hval : s.valid = true ∧ s.steps < c.rebuildFrequency := by
        unfold listsStillValid at hv
        rw [Bool.and_eq_true] at hv
        refine ⟨hv.1, ?_⟩
        have h2 := hv.2
        rw [Bool.not_eq_true', Bool.or_eq_false_iff, decide_eq_false_iff_not] at h2
        omega
      have hcalled : s.called = true := by
        by_contra hx
        rw [Bool.not_eq_true] at hx
        rw [h.fresh hx] at hval
        cases hval.1
      have hm1 : mv.sinceRebuild ≤ s.steps + 1 := by
        refine h.moves.trans ?_
        split <;> omega
      have hb : s.bump (listsStillValid c s e) = { s with valid := true, steps := s.steps + 1, contSteps := s.steps + 1 } := by
        unfold LHState.bump
        rw [hv, if_pos hcalled]
        simp
      obtain ⟨cells', leave, a1, -, -, -, -, -, -, -, a9⟩ := collectLeaving_exact hc (cs := s.steps + 1) hm1 (by omega) hok (h.store hn)
      unfold LHState.updateContainer at hs
      simp only [hb, if_true] at hs
      rw [a1] at hs
      cases hs
      refine ⟨fun k p hp => ?_, ?_⟩
      · obtain ⟨q, hq, e1⟩ := a9 k p hp
        show ∃ old, _ ∧ HalfApart (c.skinPerTimestep * ((if listsStillValid c s e = true then mv.sinceRebuild else 0 : Nat) : Rat)) _ _
        rw [if_pos hv, e1]
        exact he.near k q hq
      · show s.steps + 1 ≤ _
        omega
    · rw [if_neg hv] at u2
      refine ⟨fun k p hp => ?_, ?_⟩
      · obtain ⟨old, o1, o2⟩ := (u2.place k p hp).near
        have hz : (((⟨0, false⟩ : Moves).sinceRebuild : Nat) : Rat) = 0 := Nat.cast_zero
        rw [hz, mul_zero] at o2
        obtain ⟨x1, x2, x3⟩ := o2
        rw [abs_nonpos_iff, sub_eq_zero] at x1 x2 x3
        have : p.pos = old := by
          rcases hp1 : p.pos with ⟨x, y, z⟩
          rcases old with ⟨x', y', z'⟩
          rw [hp1] at x1 x2 x3
          simp only at x1 x2 x3
          rw [x1, x2, x3]
        exact ⟨old, o1, by rw [this]; exact halfApart_refl _ _⟩
      · rw [Bool.not_eq_true] at hv
        unfold LHState.updateContainer at hs
        simp only [hv] at hs
        obtain ⟨g1, g2, g3, g4, g5, g6⟩ := bump_fields s false
        rw [if_neg (by rw [g5]; simp)] at hs
        cases hs
        show (s.bump false).steps ≤ _
        unfold LHState.bump
        split
        · simp
        · exact he.steps
  | compute =>
    cases hs
    exact ⟨he.near, he.steps⟩
  | deleteAll =>
    cases hs
    refine ⟨fun k p hp => ?_, he.steps⟩
    have : p ∈ (s.cells.map fun _ => ([] : List Particle)).flatten := mem_flatten_getD'.2 ⟨k, hp⟩
    rw [flatten_map_nil] at this
    cases this

/-- Whole histories: both invariants, with the final bookkeeping. -/
theorem close_run (hc : LHParamsOk c) (as : List LHAction) : ∀ {mv : Moves} {n : Nat} {s : LHState}, HInv c mv n s → CloseInv c mv s →
    n + as.length < 2 ^ 64 → HistoryOk c mv s as → HistoryClose c mv s as →
    ∃ s' outs, lhRun c s as = some (s', outs) ∧ HInv c (mv.after c s as) (n + as.length) s' ∧ CloseInv c (mv.after c s as) s' := by
  induction as with
  | nil =>
    intro mv n s h he _ _ _
    exact ⟨s, [], rfl, h, he⟩
  | cons a as ih =>
    intro mv n s h he hn hok hcl
    rw [List.length_cons] at hn
    obtain ⟨s1, out, a1, a2, -⟩ := lhStep_spec hc h (by omega) a hok.1
    have e1 := close_step hc h he (by omega) a hok.1 hcl.1 a1
    obtain ⟨s2, outs, b1, b2, b3⟩ := ih a2 e1 (by omega) (hok.2 _ a1) (hcl.2 _ a1)
    have ha : mv.after c s (a :: as) = (mv.next c s a).after c s1 as := by
      show (match lhStep c s a with | none => mv | some r => _) = _
      rw [a1]
    refine ⟨s2, out :: outs, ?_, ?_, by rw [ha]; exact b3⟩
    · unfold lhRun
      rw [a1]
      show (lhRun c s1 as).map _ = _
      rw [b1]; rfl
    · rw [ha, List.length_cons, show n + (as.length + 1) = n + 1 + as.length by omega]; exact b2

end Verif
