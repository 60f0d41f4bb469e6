import Verif.Lemmas.LCCollect
import Verif.Props.C33
import Mathlib.Data.List.Forall2
/-! Deletion loops, cell by cell. -/
namespace Verif
open Spec

section
variable {P : Type}

/-- The additional vectors a thread's iterator looks at. -/
def IterCfg.mineVec (cfg : IterCfg P) (n k : Nat) : Bool := decide (k ∈ forUp cfg.thread n cfg.stride)

theorem allVisits_at_cells (cfg : IterCfg P) (cells vecs : List (List P)) (hs : 0 < cfg.stride) (k : Nat) :
    ((allVisits cfg cells vecs).filter fun v => v.1 == false && v.2.1 == k).map (fun v => v.2.2) =
      (cells.getD k []).filter fun p => cfg.ful p && cfg.mine k := by
  rw [← allVisits_at cfg cells hs k]
  congr 1
  unfold allVisits
  rw [List.filter_append, List.filter_append]
  congr 1
  rw [List.filter_eq_nil_iff.2, List.filter_eq_nil_iff.2]
  · intro v hv
    rw [List.mem_map] at hv
    obtain ⟨e, -, rfl⟩ := hv
    simp
  · intro v hv
    rw [List.mem_map] at hv
    obtain ⟨e, -, rfl⟩ := hv
    simp

theorem allVisits_at_vecs (cfg : IterCfg P) (cells vecs : List (List P)) (hs : 0 < cfg.stride) (k : Nat) :
    ((allVisits cfg cells vecs).filter fun v => v.1 == true && v.2.1 == k).map (fun v => v.2.2) =
      (vecs.getD k []).filter fun p => cfg.ful p && cfg.mineVec vecs.length k := by
  unfold allVisits
  rw [tailT_eq hs, tailT_eq hs, List.filter_append]
  have hz : ∀ l : List (Nat × P), (l.map fun e => (false, e)).filter (fun v => v.1 == true && v.2.1 == k) = [] := by
    intro l
    rw [List.filter_eq_nil_iff]
    intro v hv
    rw [List.mem_map] at hv
    obtain ⟨e, -, rfl⟩ := hv
    simp
  rw [hz, List.nil_append, List.filter_map, List.map_map]
  have := flatMap_select (fun k => (vecs.getD k []).filter cfg.ful) k (forUp cfg.thread vecs.length cfg.stride) (nodup_forUp _ _ _)
  have e1 : ((fun v : Bool × Nat × P => v.2.2) ∘ fun e => (true, e)) = Prod.snd := rfl
  have e2 : ((fun v : Bool × Nat × P => v.1 == true && v.2.1 == k) ∘ fun e => (true, e)) = fun e => decide (e.1 = k) := by
    funext e
    by_cases h : e.1 = k <;> simp [Function.comp, h]
  rw [e1, e2, this]
  unfold IterCfg.mineVec
  by_cases hk : k ∈ forUp cfg.thread vecs.length cfg.stride
  · rw [if_pos hk]; simp [hk]
  · rw [if_neg hk]; simp [hk]

theorem afters_of_delete {d : P → Bool} {l : List (Visit P)} (h : ∀ v ∈ l, v.after = if d v.before then none else some v.before) :
    l.filterMap Visit.after = (l.map Visit.before).filter (fun p => !d p) ∧
    (l.filter fun v => v.after.isNone).map Visit.before = (l.map Visit.before).filter d := by
  induction l with
  | nil => exact ⟨rfl, rfl⟩
  | cons v l ih =>
    obtain ⟨i1, i2⟩ := ih fun w hw => h w (List.mem_cons_of_mem _ hw)
    have hv := h v List.mem_cons_self
    cases hd : d v.before with
    | true =>
      rw [hd, if_pos rfl] at hv
      refine ⟨?_, ?_⟩
      · rw [List.filterMap_cons_none hv, i1, List.map_cons, List.filter_cons_of_neg (by simp [hd])]
      · rw [List.filter_cons_of_pos (by simp [hv]), List.map_cons, i2, List.map_cons, List.filter_cons_of_pos (by simp [hd])]
    | false =>
      rw [hd, if_neg (by simp)] at hv
      refine ⟨?_, ?_⟩
      · rw [List.filterMap_cons_some hv, i1, List.map_cons, List.filter_cons_of_pos (by simp [hd])]
      · rw [List.filter_cons_of_neg (by simp [hv]), i2, List.map_cons, List.filter_cons_of_neg (by simp [hd])]

theorem follows_ignoring {body : P → Option P} {vs : List (Visit P)} : ∀ {seen}, Follows (fun _ p => body p) seen vs →
    ∀ v ∈ vs, v.after = body v.before := by
  induction vs with
  | nil => intro _ _ v hv; cases hv
  | cons w ws ih =>
    intro seen hf v hv
    rcases List.mem_cons.1 hv with rfl | hv
    · exact hf.1
    · exact ih hf.2 v hv

theorem perm_cancel_delete {l l' B B' : List P} {sel d : P → Bool} (h : (l' ++ B).Perm (l ++ B'))
    (hB : B.Perm (l.filter sel)) (hB' : B' = B.filter fun p => !d p) : l'.Perm (l.filter fun p => !(sel p && d p)) := by
  have h1 : (l ++ B').Perm ((l.filter fun p => !(sel p && d p)) ++ B) := by
    have e1 := (List.filter_append_perm sel l).symm
    have e2 := (List.filter_append_perm d (l.filter sel)).symm
    have e3 : (l.filter fun p => !(sel p && d p)).Perm ((l.filter sel).filter (fun p => !d p) ++ l.filter fun p => !sel p) := by
      have e4 := (List.filter_append_perm sel (l.filter fun p => !(sel p && d p))).symm
      refine e4.trans ?_
      rw [List.filter_filter, List.filter_filter, List.filter_filter]
      rw [List.filter_congr (q := fun a => !d a && sel a) (fun x _ => by cases sel x <;> cases d x <;> rfl),
        List.filter_congr (p := fun a => !sel a && !(sel a && d a)) (q := fun a => !sel a) (fun x _ => by cases sel x <;> cases d x <;> rfl)]
    have e5 : B'.Perm ((l.filter sel).filter fun p => !d p) := by rw [hB']; exact hB.filter _
    have e6 : l.Perm ((l.filter sel) ++ l.filter fun p => !sel p) := e1
    refine (e6.append e5).trans ?_
    refine List.Perm.trans ?_ (e3.symm.append hB.symm)
    rw [List.append_assoc]
    refine List.perm_append_comm.trans ?_
    apply List.Perm.append_right
    exact List.perm_append_comm
  exact (List.perm_append_right_iff _).1 (h.trans h1)

theorem flatten_perm_of_getD {l l' : List (List P)} (hlen : l'.length = l.length) (h : ∀ k, (l'.getD k []).Perm (l.getD k [])) :
    l'.flatten.Perm l.flatten := by
  rw [← flatten_range l, ← flatten_range l', hlen]
  exact List.Perm.flatMap_left _ fun k _ => h k

/-- One pass of a deletion loop. -/
theorem delete_one_pass (cfg : IterCfg P) (d : P → Bool) (seen : List P) {cells vecs : List (List P)} (hg : GoodStorage cfg cells vecs) :
    ∃ (vs : List (Visit P)) (t : IterState P),
      t.cells.length = cells.length ∧ t.vecs.length = vecs.length ∧ GoodStore cfg t ∧
      (∀ k, (t.cells.getD k []).Perm ((cells.getD k []).filter fun p => !((cfg.ful p && cfg.mine k) && d p))) ∧
      (∀ k, (t.vecs.getD k []).Perm ((vecs.getD k []).filter fun p => !((cfg.ful p && cfg.mineVec vecs.length k) && d p))) ∧
      (t.cells.flatten ++ t.vecs.flatten ++ (vs.filter fun v => v.after.isNone).map Visit.before).Perm (cells.flatten ++ vecs.flatten) ∧
      (∀ v ∈ vs, v.after = if d v.before then none else some v.before) ∧
      (∀ v ∈ vs, ∃ k, (v.inVecs = false ∧ v.before ∈ cells.getD k [] ∧ cfg.ful v.before = true ∧ cfg.mine k = true) ∨
        (v.inVecs = true ∧ v.before ∈ vecs.getD k [])) ∧
      vs.length ≤ cells.flatten.length + vecs.flatten.length ∧
      ((∀ m, iterLoop cfg (fun _ p => if d p then none else some p) (m + vs.length + 1) seen (iterBegin cfg cells vecs) = some (vs, t)) ∨
       (vecs = [] ∧ (∃ v, vs.getLast? = some v ∧ v.after = none) ∧ t = iterBegin cfg t.cells [] ∧
        ∀ m, iterLoop cfg (fun _ p => if d p then none else some p) (m + vs.length) seen (iterBegin cfg cells vecs) =
          (iterLoop cfg (fun _ p => if d p then none else some p) m (seen ++ vs.map Visit.before) t).map fun r => (vs ++ r.1, r.2))) := by
  obtain ⟨vs, t, a1, a2, a3, a4, a5, a6, a7, -, -, a10⟩ := begin_pass cfg (fun _ p => if d p then none else some p) seen hg
  have hafter := follows_ignoring (body := fun p => if d p then none else some p) a2
  have hbc : ∀ k, (beforesAt false k vs).Perm ((cells.getD k []).filter fun p => cfg.ful p && cfg.mine k) := by
    intro k
    rw [← allVisits_at_cells cfg cells vecs hg.stride k]
    have := (a1.filter fun v => v.1 == false && v.2.1 == k).map (fun v => v.2.2)
    rw [List.filter_map, List.map_map] at this
    exact this
  have hbv : ∀ k, (beforesAt true k vs).Perm ((vecs.getD k []).filter fun p => cfg.ful p && cfg.mineVec vecs.length k) := by
    intro k
    rw [← allVisits_at_vecs cfg cells vecs hg.stride k]
    have := (a1.filter fun v => v.1 == true && v.2.1 == k).map (fun v => v.2.2)
    rw [List.filter_map, List.map_map] at this
    exact this
  have haf : ∀ b k, aftersAt b k vs = (beforesAt b k vs).filter fun p => !d p := by
    intro b k
    unfold aftersAt beforesAt
    exact (afters_of_delete fun v hv => hafter v (List.mem_filter.1 hv).1).1
  have hwhere : ∀ v ∈ vs, ∃ k, (v.inVecs = false ∧ v.before ∈ cells.getD k [] ∧ cfg.ful v.before = true ∧ cfg.mine k = true) ∨
        (v.inVecs = true ∧ v.before ∈ vecs.getD k []) := by
    intro v hv
    refine ⟨v.idx, ?_⟩
    cases hb : v.inVecs with
    | false =>
      have hm : v.before ∈ beforesAt false v.idx vs :=
        List.mem_map.2 ⟨v, List.mem_filter.2 ⟨hv, by rw [hb]; simp⟩, rfl⟩
      have := (hbc v.idx).subset hm
      rw [List.mem_filter, Bool.and_eq_true] at this
      exact Or.inl ⟨rfl, this.1, this.2.1, this.2.2⟩
    | true =>
      have hm : v.before ∈ beforesAt true v.idx vs :=
        List.mem_map.2 ⟨v, List.mem_filter.2 ⟨hv, by rw [hb]; simp⟩, rfl⟩
      have := (hbv v.idx).subset hm
      rw [List.mem_filter] at this
      exact Or.inr ⟨rfl, this.1⟩
  have hbal := balance_total hg.stride a1 a3 a4 a6 a7
  obtain ⟨hf1, hf2⟩ := afters_of_delete hafter
  have hsplit := List.filter_append_perm d (vs.map Visit.before)
  have hcancel : (t.cells.flatten ++ t.vecs.flatten ++ (vs.filter fun v => v.after.isNone).map Visit.before).Perm (cells.flatten ++ vecs.flatten) := by
    rw [hf2]
    rw [hf1] at hbal
    have h1 := (hsplit.append_left (t.cells.flatten ++ t.vecs.flatten)).trans hbal
    rw [← List.append_assoc] at h1
    exact (List.perm_append_right_iff _).1 h1
  have hlen : vs.length ≤ cells.flatten.length + vecs.flatten.length := by
    have h1 := a1.length_eq
    rw [List.length_map] at h1
    have hN : ∀ (L : List Nat) (l : List (List P)), L.Nodup → ((L.flatMap fun k => ((l.getD k []).filter cfg.ful).map fun p => (k, p))).length ≤ l.flatten.length := by
      intro L l hL
      have h2 : ((L.flatMap fun k => ((l.getD k []).filter cfg.ful).map fun p => (k, p))).length ≤ (L.flatMap fun k => l.getD k []).length := by
        rw [List.length_flatMap, List.length_flatMap]
        apply List.sum_le_sum
        intro k _
        rw [List.length_map]; exact List.length_filter_le _ _
      refine h2.trans ?_
      have h3 : (L.flatMap fun k => l.getD k []).length = ((L.filter fun k => decide (k < l.length)).flatMap fun k => l.getD k []).length := by
        clear h1 h2 hL
        induction L with
        | nil => rfl
        | cons k L ih =>
          by_cases hk : k < l.length
          · rw [List.filter_cons_of_pos (by simpa using hk), List.flatMap_cons, List.flatMap_cons, List.length_append, List.length_append, ih]
          · rw [List.filter_cons_of_neg (by simpa using hk), List.flatMap_cons, List.length_append, ih]
            have : l.getD k [] = [] := by rw [List.getD, List.getElem?_eq_none (by omega)]; rfl
            rw [this]; simp
      rw [h3, ← flatten_range l]
      have hsub : (L.filter fun k => decide (k < l.length)).Subperm (List.range l.length) := by
        refine (hL.filter _).subperm ?_
        intro k hk
        rw [List.mem_filter, decide_eq_true_eq] at hk
        exact List.mem_range.2 hk.2
      obtain ⟨L', hp, hs'⟩ := hsub
      rw [← (hp.flatMap_right _).length_eq]
      have hsum : ∀ {A B : List Nat}, A.Sublist B → (A.flatMap fun k => l.getD k []).length ≤ (B.flatMap fun k => l.getD k []).length := by
        intro A B hAB
        induction hAB with
        | slnil => simp
        | cons a _ ih => rw [List.flatMap_cons, List.length_append]; omega
        | cons_cons a _ ih => rw [List.flatMap_cons, List.flatMap_cons, List.length_append, List.length_append]; omega
      exact hsum hs'
    rw [h1]
    unfold allVisits
    rw [tailT_eq hg.stride, tailT_eq hg.stride, List.length_append, List.length_map, List.length_map]
    exact Nat.add_le_add (hN _ _ (nodup_forUp _ _ _)) (hN _ _ (nodup_forUp _ _ _))
  refine ⟨vs, t, a3, a4, a5, ?_, ?_, hcancel, hafter, hwhere, hlen, ?_⟩
  · intro k; exact perm_cancel_delete (a6 k) (hbc k) (haf false k)
  · intro k; exact perm_cancel_delete (a7 k) (hbv k) (haf true k)
  · rcases a10 with ⟨-, hl⟩ | h
    · exact Or.inl hl
    · exact Or.inr h

/-- A whole deletion loop. -/
theorem delete_loop (cfg : IterCfg P) (d : P → Bool) {cells vecs : List (List P)} (hg : GoodStorage cfg cells vecs) :
    ∃ (vs : List (Visit P)) (t : IterState P),
      t.cells.length = cells.length ∧ t.vecs.length = vecs.length ∧
      (∀ k, (t.cells.getD k []).Perm ((cells.getD k []).filter fun p => !((cfg.ful p && cfg.mine k) && d p))) ∧
      (∀ k, (t.vecs.getD k []).Perm ((vecs.getD k []).filter fun p => !((cfg.ful p && cfg.mineVec vecs.length k) && d p))) ∧
      (t.cells.flatten ++ t.vecs.flatten ++ (vs.filter fun v => v.after.isNone).map Visit.before).Perm (cells.flatten ++ vecs.flatten) ∧
      (∀ m, (cells.flatten.length + vecs.flatten.length + 1) * (cells.flatten.length + vecs.flatten.length + 1) ≤ m →
        iterLoop cfg (fun _ p => if d p then none else some p) m [] (iterBegin cfg cells vecs) = some (vs, t)) := by
  obtain ⟨vs, t, a1, a2, a3, a4, a5, a6, a7, -, a8, a9⟩ := delete_one_pass cfg d [] hg
  rcases a9 with a9 | ⟨hv, ⟨v, hlast, hdel⟩, ht, hl⟩
  · refine ⟨vs, t, a1, a2, a4, a5, a6, ?_⟩
    intro m hm
    have h1 : vs.length + 1 ≤ m := by
      refine le_trans ?_ hm
      nlinarith
    have := a9 (m - (vs.length + 1))
    rw [show m - (vs.length + 1) + vs.length + 1 = m by omega] at this
    exact this
  · subst hv
    have hlt : t.vecs = [] := List.eq_nil_of_length_eq_zero a2
    obtain ⟨ws, u, b1, b2, b3, b4, b5, b6, b7, b8, b9, b10⟩ := delete_one_pass cfg d ([] ++ vs.map Visit.before) (goodStorage_of_store a3)
    have hnodel : ∀ w ∈ ws, w.after ≠ none := by
      intro w hw hn
      have hd : d w.before = true := by
        have := b7 w hw
        by_contra hc
        rw [if_neg hc] at this
        rw [this] at hn; cases hn
      obtain ⟨k, ⟨-, hmem, hful, hmine⟩ | ⟨-, hmem⟩⟩ := b8 w hw
      · have := (a4 k).subset hmem
        rw [List.mem_filter, hful, hmine, hd] at this
        simp at this
      · simp at hmem
    have hnil : ws.filter (fun v => v.after.isNone) = [] := by
      rw [List.filter_eq_nil_iff]
      intro w hw
      have := hnodel w hw
      cases hx : w.after with
      | none => exact absurd hx this
      | some _ => simp
    have hsame : ∀ k, (u.cells.getD k []).Perm (t.cells.getD k []) := by
      intro k
      have hk := b4 k
      rw [List.filter_eq_self.2] at hk
      · exact hk
      · intro p hp
        have hp2 := (a4 k).subset hp
        rw [List.mem_filter] at hp2
        exact hp2.2
    have hu : u.vecs = [] := List.eq_nil_of_length_eq_zero b2
    rcases b10 with b10 | ⟨-, ⟨w, hw, hwd⟩, -, -⟩
    · refine ⟨vs ++ ws, u, b1.trans a1, b2, fun k => (hsame k).trans (a4 k), ?_, ?_, ?_⟩
      · intro k; rw [hu]; simp
      · rw [List.filter_append, hnil, List.append_nil, hu]
        rw [hlt] at a6
        have hfl : u.cells.flatten.Perm t.cells.flatten := flatten_perm_of_getD b1 hsame
        exact ((hfl.append_right _).append_right _).trans a6
      · intro m hm
        have hpos : 1 ≤ vs.length := by
          cases vs with
          | nil => simp at hlast
          | cons _ _ => simp
        have htl : t.cells.flatten.length ≤ cells.flatten.length := by
          have := a6.length_eq
          rw [List.length_append, List.length_append, List.length_append, List.flatten_nil, List.length_nil] at this
          omega
        simp only [List.flatten_nil, List.length_nil, Nat.add_zero] at a8 b9 hm
        have h1 : vs.length + ws.length + 1 ≤ m := by
          refine le_trans ?_ hm
          nlinarith
        have e1 := hl (m - vs.length)
        rw [show m - vs.length + vs.length = m by omega] at e1
        have e2 := b10 (m - vs.length - (ws.length + 1))
        rw [show m - vs.length - (ws.length + 1) + ws.length + 1 = m - vs.length by omega, ← ht] at e2
        rw [e1, e2]
        rfl
    · exact absurd hwd (hnodel w (List.mem_of_getLast? hw))

end


/-- Everything a sequential `LinkedCells` iterator wants is in its cells. -/
theorem lc_mine {b : CellBlock} {behavior : Nat} (hb : NoDummyOrAll behavior) {cells vecs : List (List Particle)}
    (hs : LCStorage b cells vecs) {k : Nat} {p : Particle} (hp : p ∈ cells.getD k []) (hw : wanted behavior p.own = true) :
    (lcIterCfg b behavior 1 0).mine k = true := by
  have hk : k < cells.length := by
    by_contra hc
    rw [List.getD, List.getElem?_eq_none (by omega)] at hp
    cases hp
  rw [hs.len] at hk
  have hthread : iterThread behavior 0 = 0 := by unfold iterThread; split <;> rfl
  have hstride : iterStride behavior 1 = 1 := by unfold iterStride; split <;> rfl
  unfold IterCfg.mine
  rw [decide_eq_true_eq]
  simp only [lcIterCfg, hthread, hstride]
  rw [mem_forUp_one]
  by_cases hh : behavior &&& ibHalo = 0
  · simp only [hh, if_true, Nat.add_zero]
    by_contra hc
    have hmis : cellMatchesBehavior b behavior k = false := by
      unfold cellMatchesBehavior
      have : b.cellCanContainHalo k = true := by
        unfold CellBlock.cellCanContainHalo
        rw [if_pos (by omega)]
      rw [this, hh]; simp
    rw [not_wanted_of_mismatch hs hb hmis hp] at hw
    cases hw
  · simp only [hh, if_false]; omega

/-- A sequential deletion loop over a linked-cells container and additional vectors. -/
theorem lc_delete_loop {b : CellBlock} {behavior : Nat} (hb : NoDummyOrAll behavior) {cells vecs : List (List Particle)}
    (hs : LCStorage b cells vecs) (d : Particle → Bool) :
    ∃ (vs : List (Visit Particle)) (t : IterState Particle),
      t.cells.length = cells.length ∧ t.vecs.length = vecs.length ∧
      (∀ k, (t.cells.getD k []).Perm ((cells.getD k []).filter fun p => !(wanted behavior p.own && d p))) ∧
      (∀ k, (t.vecs.getD k []).Perm ((vecs.getD k []).filter fun p => !(wanted behavior p.own && d p))) ∧
      (t.cells.flatten ++ t.vecs.flatten ++ (vs.filter fun v => v.after.isNone).map Visit.before).Perm (cells.flatten ++ vecs.flatten) ∧
      (∀ m, (cells.flatten.length + vecs.flatten.length + 1) * (cells.flatten.length + vecs.flatten.length + 1) ≤ m →
        iterLoop (lcIterCfg b behavior 1 0) (fun _ p => if d p then none else some p) m [] (iterBegin (lcIterCfg b behavior 1 0) cells vecs) =
          some (vs, t)) := by
  obtain ⟨vs, t, h1, h2, h3, h4, h5, h6⟩ := delete_loop (lcIterCfg b behavior 1 0) d (lc_goodStorage hs hb 1 0 Nat.one_pos)
  refine ⟨vs, t, h1, h2, ?_, ?_, h5, h6⟩
  · intro k
    refine (h3 k).trans ?_
    rw [List.filter_congr]
    intro p hp
    have e : (lcIterCfg b behavior 1 0).ful p = wanted behavior p.own := fulfills_wanted behavior p.own
    rw [e]
    cases hw : wanted behavior p.own with
    | false => rfl
    | true => rw [lc_mine hb hs hp hw]; rfl
  · intro k
    refine (h4 k).trans ?_
    rw [List.filter_congr]
    intro p hp
    have hk : k < vecs.length := by
      by_contra hc
      rw [List.getD, List.getElem?_eq_none (by omega)] at hp
      cases hp
    have e : (lcIterCfg b behavior 1 0).ful p = wanted behavior p.own := fulfills_wanted behavior p.own
    have hthread : iterThread behavior 0 = 0 := by unfold iterThread; split <;> rfl
    have hstride : iterStride behavior 1 = 1 := by unfold iterStride; split <;> rfl
    have e2 : (lcIterCfg b behavior 1 0).mineVec vecs.length k = true := by
      unfold IterCfg.mineVec
      rw [decide_eq_true_eq]
      simp only [lcIterCfg, hthread, hstride]
      rw [mem_forUp_one]
      omega
    rw [e, e2, Bool.and_true]

/-! ### Buffers -/

/-- Element-wise: the new vector holds the elements of the old one that satisfy `q`. -/
def Kept (q : Particle → Bool) (new old : List (List Particle)) : Prop := List.Forall₂ (fun v w => v.Perm (w.filter q)) new old

theorem kept_of_getD {q : Particle → Bool} : ∀ {new old : List (List Particle)}, new.length = old.length →
    (∀ k, (new.getD k []).Perm ((old.getD k []).filter q)) → Kept q new old := by
  intro new
  induction new with
  | nil =>
    intro old hl _
    have : old = [] := List.eq_nil_of_length_eq_zero hl.symm
    subst this; exact List.Forall₂.nil
  | cons v new ih =>
    intro old hl h
    cases old with
    | nil => simp at hl
    | cons w old =>
      refine List.Forall₂.cons (h 0) (ih (by simpa using hl) fun k => ?_)
      have := h (k + 1)
      simpa [List.getD] using this

theorem Kept.flatten {q : Particle → Bool} {new old : List (List Particle)} (h : Kept q new old) :
    new.flatten.Perm (old.flatten.filter q) := by
  induction h with
  | nil => exact List.Perm.refl _
  | cons h _ ih =>
    rw [List.flatten_cons, List.flatten_cons, List.filter_append]
    exact h.append ih

theorem Kept.length {q : Particle → Bool} {new old : List (List Particle)} (h : Kept q new old) : new.length = old.length :=
  List.Forall₂.length_eq h

theorem kept_putBack {q : Particle → Bool} {bufs : List (List Particle)} : ∀ {vs : List (List Particle)}, Kept q vs (nonEmpty bufs) →
    Kept q (putBack bufs vs) bufs := by
  induction bufs with
  | nil => intro vs _; exact List.Forall₂.nil
  | cons b bufs ih =>
    intro vs h
    unfold putBack
    by_cases hb : b = []
    · rw [if_pos hb]
      unfold nonEmpty at h
      rw [List.filter_cons_of_neg (by simp [hb])] at h
      refine List.Forall₂.cons ?_ (ih h)
      rw [hb]; exact List.Perm.refl _
    · rw [if_neg hb]
      unfold nonEmpty at h
      rw [List.filter_cons_of_pos (by simp [hb])] at h
      cases h with
      | cons h1 h2 => exact List.Forall₂.cons h1 (ih h2)

theorem nonEmpty_flatten (bufs : List (List Particle)) : (nonEmpty bufs).flatten = bufs.flatten := by
  induction bufs with
  | nil => rfl
  | cons b bufs ih =>
    unfold nonEmpty at *
    by_cases hb : b = []
    · rw [List.filter_cons_of_neg (by simp [hb]), ih, hb]; rfl
    · rw [List.filter_cons_of_pos (by simp [hb]), List.flatten_cons, List.flatten_cons, ih]

theorem nonEmpty_length (bufs : List (List Particle)) : (nonEmpty bufs).length ≤ bufs.length := List.length_filter_le _ _

end Verif
