import Verif.Lemmas.IterPass
/-! The visits of a whole user loop. -/
namespace Verif

variable {P : Type}

theorem iterWrite_eq (s : IterState P) (q : P) : iterWrite s q = { stored s (some q) with cur := some q } := by
  unfold iterWrite stored IterState.at
  cases hb : s.inVecs <;> rfl

theorem pending_cur (cfg : IterCfg P) (s : IterState P) (x : Option P) : pending cfg { s with cur := x } = pending cfg s := rfl

theorem fetch_cur (cfg : IterCfg P) (s : IterState P) (x : Option P) : fetch cfg { s with cur := x } = fetch cfg s := by
  rcases s with ⟨a, b, c, d, e, f⟩
  cases c <;> rfl

theorem fetch_restart (cfg : IterCfg P) (s : IterState P) (h : s.inVecs = false) (h1 : s.ci = 0) (h2 : s.pi = 0) :
    fetch cfg s = iterBegin cfg s.cells s.vecs := by
  unfold iterBegin
  rw [← fetch_cur cfg s none, h.symm, ← h2]
  congr 1
  rcases s with ⟨a, b, c, d, e, f⟩
  simp_all

theorem deleteCurrent_vecs (cfg : IterCfg P) (s : IterState P) (hb : s.inVecs = true) :
    deleteCurrent cfg s =
      if swapDelete (s.vecs.getD s.ci []) s.pi = [] ∨
          (((((swapDelete (s.vecs.getD s.ci []) s.pi)[s.pi]?).or (s.vecs.getD s.ci []).getLast?)).map cfg.ful).getD false = false then
        { iterNext cfg (stored s none) with pi := ((iterNext cfg (stored s none)).pi + idxMod - 1) % idxMod }
      else { stored s none with pi := (s.pi + idxMod - 1) % idxMod } := by
  rcases s with ⟨cells, vecs, inVecs, ci, pi, cur⟩
  simp only at hb
  subst hb
  unfold deleteCurrent stored IterState.at
  simp only [if_true]
  split <;> rfl

theorem deleteCurrent_cells (cfg : IterCfg P) (s : IterState P) (hb : s.inVecs = false) :
    deleteCurrent cfg s =
      if ¬ s.pi < (swapDelete (s.cells.getD s.ci []) s.pi).length then
        { iterNext cfg (stored s none) with pi := ((iterNext cfg (stored s none)).pi + idxMod - 1) % idxMod }
      else if (((swapDelete (s.cells.getD s.ci []) s.pi)[s.pi]?).map cfg.ful).getD false = false then
        { iterNext cfg (stored s none) with pi := ((iterNext cfg (stored s none)).pi + idxMod - 1) % idxMod }
      else { stored s none with pi := (s.pi + idxMod - 1) % idxMod } := by
  rcases s with ⟨cells, vecs, inVecs, ci, pi, cur⟩
  simp only at hb
  subst hb
  unfold deleteCurrent stored IterState.at
  simp only [Bool.false_eq_true, if_false]
  split
  · rfl
  · split <;> rfl

/-- One round: after the body and `++` the iterator stands where the remaining particles are those not yet visited, or it has
restarted. -/
theorem step_spec {cfg : IterCfg P} {s : IterState P} {p : P} (hv : ValidAt cfg s p) (hg : GoodStore cfg s) (r : Option P) :
    ∃ j, (pending cfg { stored s r with pi := j }).Perm (pending cfg { s with pi := s.pi + 1 }) ∧
      (iterNext cfg (afterBody cfg s r) = fetch cfg { stored s r with pi := j } ∨
       (r = none ∧ pending cfg { stored s r with pi := j } = [] ∧ s.vecs = [] ∧ s.inVecs = false ∧
        iterNext cfg (afterBody cfg s r) = iterBegin cfg (stored s r).cells [])) := by
  obtain ⟨hpl, hpe⟩ := List.getElem?_eq_some_iff.1 hv.here
  have hsm := hg.small s.inVecs s.ci
  have hmod : (s.pi + 1) % idxMod = s.pi + 1 := Nat.mod_eq_of_lt (by omega)
  obtain ⟨f1, f2, f3, f4, f5⟩ := stored_fields s r
  cases r with
  | some q =>
    refine ⟨s.pi + 1, ?_, Or.inl ?_⟩
    · rw [pending_stored hv hg, pending_same hv hg, stored_at hv.here, if_pos ⟨rfl, rfl⟩]
      simp only
      rw [List.drop_set_of_lt (by omega)]
    · show iterNext cfg (iterWrite s q) = _
      rw [iterWrite_eq]
      unfold iterNext
      simp only [f3, hmod]
      rw [← fetch_cur cfg { stored s (some q) with pi := s.pi + 1 } (some q)]
  | none =>
    -- the two possible shapes of `deleteCurrent`
    have hat : (stored s none).at s.inVecs s.ci = swapDelete (s.at s.inVecs s.ci) s.pi := by
      rw [stored_at hv.here, if_pos ⟨rfl, rfl⟩]
    have hperm : ∀ j, (j = s.pi ∨ (j = s.pi + 1 ∧
          ∀ x, (swapDelete (s.at s.inVecs s.ci) s.pi)[s.pi]? = some x → cfg.ful x = false)) →
        (pending cfg { stored s none with pi := j }).Perm (pending cfg { s with pi := s.pi + 1 }) := by
      intro j hj
      rw [pending_stored hv hg, pending_same hv hg, hat]
      apply List.Perm.append_right
      apply List.Perm.map
      have hd := (swapDelete_drop hv.here).filter cfg.ful
      rcases hj with rfl | ⟨rfl, hx⟩
      · exact hd
      · refine List.Perm.trans (List.Perm.of_eq ?_) hd
        by_cases hl : s.pi < (swapDelete (s.at s.inVecs s.ci) s.pi).length
        · rw [List.drop_eq_getElem_cons hl, List.filter_cons_of_neg]
          simp [hx _ (List.getElem?_eq_getElem hl)]
        · rw [List.drop_eq_nil_of_le (by omega), List.drop_eq_nil_of_le (by omega)]
    have hs1g : GoodStore cfg (stored s none) := stored_good hv hg none
    -- no inner `++`
    have stay : deleteCurrent cfg s = { stored s none with pi := (s.pi + idxMod - 1) % idxMod } →
        iterNext cfg (deleteCurrent cfg s) = fetch cfg { stored s none with pi := s.pi } := by
      intro hd
      rw [hd]
      unfold iterNext
      have : ((s.pi + idxMod - 1) % idxMod + 1) % idxMod = s.pi := by
        have : s.pi < idxMod := by omega
        unfold idxMod at *
        omega
      simp only [this]
    -- inner `++`
    have move : deleteCurrent cfg s = { iterNext cfg (stored s none) with
          pi := ((iterNext cfg (stored s none)).pi + idxMod - 1) % idxMod } →
        (∀ x, (swapDelete (s.at s.inVecs s.ci) s.pi)[s.pi]? = some x → cfg.ful x = false) →
        iterNext cfg (deleteCurrent cfg s) = fetch cfg { stored s none with pi := s.pi + 1 } ∨
        (pending cfg { stored s none with pi := s.pi + 1 } = [] ∧ s.vecs = [] ∧ s.inVecs = false ∧
          iterNext cfg (deleteCurrent cfg s) = iterBegin cfg (stored s none).cells []) := by
      intro hd hx
      have e1 : iterNext cfg (stored s none) = fetch cfg { stored s none with pi := s.pi + 1 } := by
        unfold iterNext
        simp only [f3, hmod]
      have hg' : GoodStore cfg { stored s none with pi := s.pi + 1 } := ⟨hs1g.stride, hs1g.irr, hs1g.small, hs1g.vsmall⟩
      have e0 : ({ stored s none with pi := s.pi + 1 } : IterState P).inVecs = false →
          effCell cfg ({ stored s none with pi := s.pi + 1 } : IterState P).ci ({ stored s none with pi := s.pi + 1 } : IterState P).pi
            = ({ stored s none with pi := s.pi + 1 } : IterState P).ci := by
        intro _; unfold effCell; rw [if_neg]; simp
      have e2 : ({ stored s none with pi := s.pi + 1 } : IterState P).inVecs = false →
          cfg.startC + cfg.thread ≤ effCell cfg ({ stored s none with pi := s.pi + 1 } : IterState P).ci ({ stored s none with pi := s.pi + 1 } : IterState P).pi := by
        intro hb
        rw [e0 hb]
        simp only [f1] at hb
        simp only [f2]
        exact hv.lo hb
      by_cases hr : pending cfg { stored s none with pi := s.pi + 1 } ≠ [] ∨ s.vecs ≠ [] ∨ s.inVecs = true
      · left
        have := back_and_forth hg' e2 e0 (by
          rcases hr with h | h | h
          · exact Or.inl h
          · right; left
            intro hc
            apply h
            have := congrArg List.length hc
            simp only [f5] at this
            exact List.eq_nil_of_length_eq_zero this
          · right; right; simp only [f1]; exact h)
        rw [hd, e1]
        exact this
      · right
        simp only [not_or, not_not, Bool.not_eq_true] at hr
        obtain ⟨r1, r2, r3⟩ := hr
        refine ⟨r1, r2, r3, ?_⟩
        have hvn : (stored s none).vecs = [] := List.eq_nil_of_length_eq_zero (by rw [f5, r2]; rfl)
        obtain ⟨k1, k2, k3⟩ := fetch_spec hg' e2 e0
        rw [hd, e1]
        rcases k3 with ⟨k3, k4, ⟨k5, k6, k7⟩ | ⟨k5, k6, k7, k8, k9⟩⟩ | ⟨q, k3, k4⟩
        · exfalso
          -- with no additional vectors the iterator stays in the container
          have : (fetch cfg { stored s none with pi := s.pi + 1 }).inVecs = false := by
            unfold fetch
            simp only [f1, r3, Bool.false_eq_true, if_false, hvn, if_true]
            cases getParticleImpl cfg (stored s none).cells (stored s none).ci (s.pi + 1) <;> simp [f1, r3]
          rw [this] at k5; cases k5
        · unfold iterNext
          rw [fetch_restart]
          · show iterBegin cfg (fetch cfg { stored s none with pi := s.pi + 1 }).cells
              (fetch cfg { stored s none with pi := s.pi + 1 }).vecs = _
            rw [k1, k2]
            show iterBegin cfg (stored s none).cells (stored s none).vecs = _
            rw [hvn]
          · exact k5
          · exact k8
          · simp only [k9]; decide
        · rw [r1, k3.pending hg.stride] at k4; cases k4
    show ∃ j, _ ∧ (iterNext cfg (deleteCurrent cfg s) = _ ∨ _)
    have finish_move : deleteCurrent cfg s = { iterNext cfg (stored s none) with
          pi := ((iterNext cfg (stored s none)).pi + idxMod - 1) % idxMod } →
        (∀ x, (swapDelete (s.at s.inVecs s.ci) s.pi)[s.pi]? = some x → cfg.ful x = false) →
        ∃ j, (pending cfg { stored s none with pi := j }).Perm (pending cfg { s with pi := s.pi + 1 }) ∧
      (iterNext cfg (deleteCurrent cfg s) = fetch cfg { stored s none with pi := j } ∨
       (none = (none : Option P) ∧ pending cfg { stored s none with pi := j } = [] ∧ s.vecs = [] ∧ s.inVecs = false ∧
        iterNext cfg (deleteCurrent cfg s) = iterBegin cfg (stored s none).cells [])) := by
      intro hd hx
      refine ⟨s.pi + 1, hperm _ (Or.inr ⟨rfl, hx⟩), ?_⟩
      rcases move hd hx with h | ⟨h1, h2, h3, h4⟩
      · exact Or.inl h
      · exact Or.inr ⟨rfl, h1, h2, h3, h4⟩
    by_cases hb : s.inVecs = true
    · have hatv : s.at s.inVecs s.ci = s.vecs.getD s.ci [] := by unfold IterState.at; simp [hb]
      have hdc := deleteCurrent_vecs cfg s hb
      by_cases hc : swapDelete (s.vecs.getD s.ci []) s.pi = [] ∨
          (((((swapDelete (s.vecs.getD s.ci []) s.pi)[s.pi]?).or (s.vecs.getD s.ci []).getLast?)).map cfg.ful).getD false = false
      · rw [if_pos hc] at hdc
        refine finish_move hdc ?_
        intro x hx
        rw [hatv] at hx
        rcases hc with hc | hc
        · rw [hc] at hx; simp at hx
        · rw [hx] at hc; simpa using hc
      · rw [if_neg hc] at hdc
        exact ⟨s.pi, hperm _ (Or.inl rfl), Or.inl (stay hdc)⟩
    · rw [Bool.not_eq_true] at hb
      have hatv : s.at s.inVecs s.ci = s.cells.getD s.ci [] := by unfold IterState.at; simp [hb]
      have hdc := deleteCurrent_cells cfg s hb
      by_cases hc : ¬ s.pi < (swapDelete (s.cells.getD s.ci []) s.pi).length
      · rw [if_pos hc] at hdc
        refine finish_move hdc ?_
        intro x hx
        rw [hatv, List.getElem?_eq_none (by omega)] at hx
        cases hx
      · rw [if_neg hc] at hdc
        by_cases hc2 : (((swapDelete (s.cells.getD s.ci []) s.pi)[s.pi]?).map cfg.ful).getD false = false
        · rw [if_pos hc2] at hdc
          refine finish_move hdc ?_
          intro x hx
          rw [hatv] at hx
          rw [hx] at hc2; simpa using hc2
        · rw [if_neg hc2] at hdc
          exact ⟨s.pi, hperm _ (Or.inl rfl), Or.inl (stay hdc)⟩

theorem iterBegin_store (cfg : IterCfg P) (cells vecs : List (List P)) :
    (iterBegin cfg cells vecs).cells = cells ∧ (iterBegin cfg cells vecs).vecs = vecs := by
  unfold iterBegin fetch
  simp only [Bool.false_eq_true, if_false]
  split
  · exact ⟨rfl, rfl⟩
  · split
    · exact ⟨rfl, rfl⟩
    · unfold fetchVecs
      split <;> exact ⟨rfl, rfl⟩

/-- The visited particle's new value is what the body says, given everything visited before. -/
def Follows (body : List P → P → Option P) : List P → List (Visit P) → Prop
  | _, [] => True
  | seen, v :: vs => v.after = body seen v.before ∧ Follows body (seen ++ [v.before]) vs

/-- Particles visited in / put back into cell (or additional vector) `k`. -/
def beforesAt (b : Bool) (k : Nat) (vs : List (Visit P)) : List P :=
  (vs.filter fun v => v.inVecs == b && v.idx == k).map Visit.before
def aftersAt (b : Bool) (k : Nat) (vs : List (Visit P)) : List P :=
  (vs.filter fun v => v.inVecs == b && v.idx == k).filterMap Visit.after

theorem loop_pass (cfg : IterCfg P) (body : List P → P → Option P) (n : Nat) :
    ∀ (s : IterState P) (seen : List P) (p : P), (pending cfg s).length = n → GoodStore cfg s → ValidAt cfg s p →
    ∃ (vs : List (Visit P)) (t : IterState P),
      (vs.map fun v => (v.inVecs, v.idx, v.before)).Perm (pending cfg s) ∧ Follows body seen vs ∧
      t.cells.length = s.cells.length ∧ t.vecs.length = s.vecs.length ∧ GoodStore cfg t ∧
      (∀ b k, (t.at b k ++ beforesAt b k vs).Perm (s.at b k ++ aftersAt b k vs)) ∧
      (∀ b k, (∀ v ∈ vs, ¬ (v.inVecs = b ∧ v.idx = k)) → t.at b k = s.at b k) ∧
      ((t.cur = none ∧ ∀ m, iterLoop cfg body (m + vs.length + 1) seen s = some (vs, t)) ∨
       (s.vecs = [] ∧ s.inVecs = false ∧ (∃ v, vs.getLast? = some v ∧ v.after = none) ∧ t = iterBegin cfg t.cells [] ∧
        ∀ m, iterLoop cfg body (m + vs.length) seen s =
          (iterLoop cfg body m (seen ++ vs.map Visit.before) t).map fun r => (vs ++ r.1, r.2))) := by
  induction n using Nat.strong_induction_on with
  | _ n ih =>
  intro s seen p hn hg hv
  set r := body seen p with hr
  set v : Visit P := ⟨s.inVecs, s.ci, p, r⟩ with hvdef
  obtain ⟨j, hperm, hnext⟩ := step_spec hv hg r
  obtain ⟨f1, f2, f3, f4, f5⟩ := stored_fields s r
  have hpend := hv.pending hg.stride
  have hg1 := stored_good hv hg r
  have hg2 : GoodStore cfg { stored s r with pi := j } := ⟨hg1.stride, hg1.irr, hg1.small, hg1.vsmall⟩
  have hloop : ∀ m, iterLoop cfg body (m + 1) seen s =
      (iterLoop cfg body m (seen ++ [p]) (iterNext cfg (afterBody cfg s r))).map fun q => (v :: q.1, q.2) := by
    intro m
    conv_lhs => unfold iterLoop
    simp only [hv.cur]
    rw [← hr]
  have hstep : ∀ b k, ((stored s r).at b k ++ beforesAt b k [v]).Perm (s.at b k ++ aftersAt b k [v]) := by
    intro b k
    rw [stored_at hv.here]
    by_cases hx : b = s.inVecs ∧ k = s.ci
    · obtain ⟨rfl, rfl⟩ := hx
      simp only [and_self, if_true]
      cases hrr : r with
      | some q => simpa [beforesAt, aftersAt, hvdef, hrr] using set_perm hv.here q
      | none => simpa [beforesAt, aftersAt, hvdef, hrr] using swapDelete_perm hv.here
    · rw [if_neg hx]
      have hne : (s.inVecs == b && s.ci == k) = false := by
        rw [Bool.eq_false_iff]
        intro hc
        simp only [Bool.and_eq_true, beq_iff_eq] at hc
        exact hx ⟨hc.1.symm, hc.2.symm⟩
      simp [beforesAt, aftersAt, hvdef, hne]
  have hframe : ∀ b k, ¬ (v.inVecs = b ∧ v.idx = k) → (stored s r).at b k = s.at b k := by
    intro b k hx
    rw [stored_at hv.here, if_neg]
    rintro ⟨rfl, rfl⟩
    exact hx ⟨rfl, rfl⟩
  rcases hnext with hnext | ⟨r1, r2, r3, r4, r5⟩
  · have he : ({ stored s r with pi := j } : IterState P).inVecs = false →
        effCell cfg ({ stored s r with pi := j } : IterState P).ci ({ stored s r with pi := j } : IterState P).pi
          = ({ stored s r with pi := j } : IterState P).ci := by
      intro hb
      simp only [f1] at hb
      have := hv.lo hb
      unfold effCell
      simp only [f2]
      split <;> omega
    have h0 : ({ stored s r with pi := j } : IterState P).inVecs = false →
        cfg.startC + cfg.thread ≤ effCell cfg ({ stored s r with pi := j } : IterState P).ci ({ stored s r with pi := j } : IterState P).pi := by
      intro hb
      rw [he hb]
      simp only [f1] at hb
      simp only [f2]
      exact hv.lo hb
    obtain ⟨k1, k2, k3⟩ := fetch_spec hg2 h0 he
    have hat : ∀ b k, (fetch cfg { stored s r with pi := j }).at b k = (stored s r).at b k := by
      intro b k; unfold IterState.at; rw [k1, k2]
    have hgf : GoodStore cfg (fetch cfg { stored s r with pi := j }) :=
      ⟨hg1.stride, by rw [k1]; exact hg1.irr, fun b k => by rw [hat]; exact hg1.small b k, by rw [k2]; exact hg1.vsmall⟩
    rcases k3 with ⟨k3, k4, -⟩ | ⟨q, k3, k4⟩
    · refine ⟨[v], fetch cfg { stored s r with pi := j }, ?_, ⟨rfl, trivial⟩, ?_, ?_, hgf, ?_, ?_, Or.inl ⟨k4, ?_⟩⟩
      · rw [hpend]
        rw [k3] at hperm
        rw [hperm.symm.eq_nil]; exact List.Perm.refl _
      · rw [k1]; exact f4
      · rw [k2]; exact f5
      · intro b k; rw [hat]; exact hstep b k
      · intro b k hx; rw [hat]; exact hframe b k (hx v (by simp))
      · intro m
        rw [show m + [v].length + 1 = (m + 1) + 1 from rfl, hloop, hnext]
        conv_lhs => unfold iterLoop
        rw [k4]; rfl
    · have hlen : (pending cfg (fetch cfg { stored s r with pi := j })).length < n := by
        rw [k4, hperm.length_eq, ← hn, hpend]; simp
      obtain ⟨vs, t, a1, a2, a3, a4, a5, a6, af, a7⟩ := ih _ hlen _ (seen ++ [p]) q rfl hgf k3
      refine ⟨v :: vs, t, ?_, ⟨rfl, a2⟩, ?_, ?_, a5, ?_, ?_, ?_⟩
      · rw [hpend, List.map_cons]
        exact List.Perm.cons _ (a1.trans (k4 ▸ hperm))
      · rw [a3, k1]; exact f4
      · rw [a4, k2]; exact f5
      · intro b k
        have e1 : ∀ b k, beforesAt b k (v :: vs) = beforesAt b k [v] ++ beforesAt b k vs := by
          intro b k
          show beforesAt b k ([v] ++ vs) = _
          simp only [beforesAt, List.filter_append, List.map_append]
        have e2 : ∀ b k, aftersAt b k (v :: vs) = aftersAt b k [v] ++ aftersAt b k vs := by
          intro b k
          show aftersAt b k ([v] ++ vs) = _
          simp only [aftersAt, List.filter_append, List.filterMap_append]
        rw [e1, e2]
        have h6 := a6 b k
        rw [hat] at h6
        have h7 := hstep b k
        calc (t.at b k ++ (beforesAt b k [v] ++ beforesAt b k vs)).Perm (t.at b k ++ (beforesAt b k vs ++ beforesAt b k [v])) :=
              List.Perm.append_left _ List.perm_append_comm
          _ |>.Perm ((t.at b k ++ beforesAt b k vs) ++ beforesAt b k [v]) := by rw [List.append_assoc]
          _ |>.Perm (((stored s r).at b k ++ aftersAt b k vs) ++ beforesAt b k [v]) := h6.append_right _
          _ |>.Perm ((stored s r).at b k ++ (beforesAt b k [v] ++ aftersAt b k vs)) := by
              rw [List.append_assoc]; exact List.Perm.append_left _ List.perm_append_comm
          _ |>.Perm (((stored s r).at b k ++ beforesAt b k [v]) ++ aftersAt b k vs) := by rw [List.append_assoc]
          _ |>.Perm ((s.at b k ++ aftersAt b k [v]) ++ aftersAt b k vs) := h7.append_right _
          _ |>.Perm _ := by rw [List.append_assoc]
      · intro b k hx
        rw [af b k (fun w hw => hx w (List.mem_cons_of_mem _ hw)), hat]
        exact hframe b k (hx v (by simp))
      · rcases a7 with ⟨a7, a8⟩ | ⟨a7, a8, ⟨w, a9, a10⟩, a11, a12⟩
        · left
          refine ⟨a7, fun m => ?_⟩
          rw [show m + (v :: vs).length + 1 = (m + vs.length + 1) + 1 from by simp; omega, hloop, hnext, a8]; rfl
        · right
          refine ⟨?_, ?_, ⟨w, ?_, a10⟩, a11, fun m => ?_⟩
          · rw [k2] at a7
            have : (stored s r).vecs.length = 0 := by
              show ({ stored s r with pi := j } : IterState P).vecs.length = 0
              rw [a7]; rfl
            exact List.eq_nil_of_length_eq_zero (by rw [← f5]; exact this)
          · by_contra hb
            rw [Bool.not_eq_false] at hb
            have : (fetch cfg { stored s r with pi := j }).inVecs = true := by
              unfold fetch
              rw [if_pos (by simp only [f1]; exact hb)]
              unfold fetchVecs
              split <;> simp only [f1, hb]
            rw [this] at a8; cases a8
          · rw [List.getLast?_cons, a9]; rfl
          · rw [show m + (v :: vs).length = (m + vs.length) + 1 from by simp; omega, hloop, hnext, a12]
            rw [Option.map_map, List.map_cons, List.append_assoc]
            rfl
  · obtain ⟨b1, b2⟩ := iterBegin_store cfg (stored s r).cells []
    have hvn : (stored s r).vecs = [] := List.eq_nil_of_length_eq_zero (by rw [f5, r3]; rfl)
    have hat : ∀ b k, (iterBegin cfg (stored s r).cells []).at b k = (stored s r).at b k := by
      intro b k; unfold IterState.at; rw [b1, b2, hvn]
    refine ⟨[v], iterBegin cfg (stored s r).cells [], ?_, ⟨rfl, trivial⟩, ?_, ?_, ?_, ?_, ?_, Or.inr ⟨r3, r4, ⟨v, rfl, r1⟩, ?_, ?_⟩⟩
    · rw [hpend]
      rw [r2] at hperm
      rw [hperm.symm.eq_nil]; exact List.Perm.refl _
    · rw [b1]; exact f4
    · rw [b2, r3]
    · exact ⟨hg1.stride, by rw [b1]; exact hg1.irr, fun b k => by rw [hat]; exact hg1.small b k, by rw [b2]; unfold idxMod; simp⟩
    · intro b k; rw [hat]; exact hstep b k
    · intro b k hx; rw [hat]; exact hframe b k (hx v (by simp))
    · rw [b1]
    · intro m
      rw [show m + [v].length = m + 1 from rfl, hloop, r5]
      rfl

end Verif
