import Verif.Lemmas.LCStore
/-! In-place loops, and the collection of leaving particles while the lists are kept. -/
namespace Verif
open Spec

theorem flatMap_select {α β : Type} [DecidableEq α] (f : α → List β) (k : α) (L : List α) (hL : L.Nodup) :
    ((L.flatMap fun j => (f j).map fun p => (j, p)).filter fun e => decide (e.1 = k)).map Prod.snd = if k ∈ L then f k else [] := by
  induction L with
  | nil => rfl
  | cons j L ih =>
    rw [List.nodup_cons] at hL
    rw [List.flatMap_cons, List.filter_append, List.map_append, ih hL.2]
    by_cases hj : j = k
    · subst hj
      rw [if_neg hL.1, if_pos List.mem_cons_self, List.append_nil, List.filter_eq_self.2, List.map_map]
      · simp [Function.comp_def]
      · intro e he
        rw [List.mem_map] at he
        obtain ⟨p, -, rfl⟩ := he
        simp
    · have hm : (k ∈ j :: L) ↔ k ∈ L := by
        rw [List.mem_cons]; constructor
        · rintro (h | h)
          · exact absurd h.symm hj
          · exact h
        · exact Or.inr
      rw [List.filter_eq_nil_iff.2]
      · simp only [hm, List.map_nil, List.nil_append]
      · intro e he
        rw [List.mem_map] at he
        obtain ⟨p, -, rfl⟩ := he
        simpa using hj

variable {P : Type}

/-- The cells a thread's iterator looks at. -/
def IterCfg.mine (cfg : IterCfg P) (k : Nat) : Bool := decide (k ∈ forUp (cfg.startC + cfg.thread) (cfg.endC + 1) cfg.stride)

theorem allVisits_at (cfg : IterCfg P) (cells : List (List P)) (hs : 0 < cfg.stride) (k : Nat) :
    ((allVisits cfg cells []).filter fun v => v.1 == false && v.2.1 == k).map (fun v => v.2.2) =
      (cells.getD k []).filter fun p => cfg.ful p && cfg.mine k := by
  unfold allVisits
  rw [tailT_eq hs, tailT_eq hs]
  have hnil : (forUp cfg.thread ([] : List (List P)).length cfg.stride) = [] := by
    rw [forUp, dif_neg (by simp)]
  rw [hnil, List.flatMap_nil, List.map_nil, List.append_nil, List.filter_map, List.map_map]
  have := flatMap_select (fun k => (cells.getD k []).filter cfg.ful) k (forUp (cfg.startC + cfg.thread) (cfg.endC + 1) cfg.stride)
    (nodup_forUp _ _ _)
  have e1 : ((fun v : Bool × Nat × P => v.2.2) ∘ fun e => (false, e)) = Prod.snd := rfl
  have e2 : ((fun v : Bool × Nat × P => v.1 == false && v.2.1 == k) ∘ fun e => (false, e)) = fun e => decide (e.1 = k) := by
    funext e
    by_cases h : e.1 = k <;> simp [Function.comp, h]
  rw [e1, e2, this]
  unfold IterCfg.mine
  by_cases hk : k ∈ forUp (cfg.startC + cfg.thread) (cfg.endC + 1) cfg.stride
  · rw [if_pos hk]; simp [hk]
  · rw [if_neg hk]; simp [hk]

/-- A loop that replaces every particle it visits. -/
theorem inplace_loop (cfg : IterCfg P) (g : P → P) {cells : List (List P)} (hg : GoodStorage cfg cells []) :
    ∃ (vs : List (Visit P)) (t : IterState P),
      (∀ n, cells.flatten.length + 1 ≤ n → iterLoop cfg (fun _ p => some (g p)) n [] (iterBegin cfg cells []) = some (vs, t)) ∧
      t.cells.length = cells.length ∧
      (∀ k, (t.cells.getD k []).Perm (((cells.getD k []).filter fun p => !(cfg.ful p && cfg.mine k)) ++
        ((cells.getD k []).filter fun p => cfg.ful p && cfg.mine k).map g)) ∧
      (vs.map Visit.before).Perm
        ((List.range cells.length).flatMap fun k => (cells.getD k []).filter fun p => cfg.ful p && cfg.mine k) := by
  obtain ⟨vs, t, a1, a2, a3, a4, a5, a6, a7, -, -, a10⟩ := begin_pass cfg (fun _ p => some (g p)) [] hg
  have hafter : ∀ v ∈ vs, v.after = some (g v.before) := by
    have : ∀ (vs : List (Visit P)) seen, Follows (fun _ p => some (g p)) seen vs → ∀ v ∈ vs, v.after = some (g v.before) := by
      intro vs
      induction vs with
      | nil => intro _ _ v hv; cases hv
      | cons w ws ih =>
        intro seen hf v hv
        rcases List.mem_cons.1 hv with rfl | hv
        · exact hf.1
        · exact ih _ hf.2 v hv
    exact this vs [] a2
  have hbef : ∀ k, (beforesAt false k vs).Perm ((cells.getD k []).filter fun p => cfg.ful p && cfg.mine k) := by
    intro k
    rw [← allVisits_at cfg cells hg.stride k]
    have := (a1.filter fun v => v.1 == false && v.2.1 == k).map (fun v => v.2.2)
    rw [List.filter_map, List.map_map] at this
    exact this
  have haft : ∀ k, aftersAt false k vs = (beforesAt false k vs).map g := by
    intro k
    unfold aftersAt beforesAt
    rw [List.map_map, ← List.filterMap_eq_map]
    apply List.filterMap_congr
    intro v hv
    exact hafter v (List.mem_filter.1 hv).1
  have hidx : ∀ v ∈ vs, v.inVecs = false ∧ v.idx < cells.length := by
    intro v hv
    have hm := a1.subset (List.mem_map.2 ⟨v, hv, rfl⟩)
    unfold allVisits at hm
    rw [tailT_eq hg.stride, tailT_eq hg.stride] at hm
    rcases List.mem_append.1 hm with hm | hm
    · rw [List.mem_map] at hm
      obtain ⟨e, he, heq⟩ := hm
      have e1 : v.inVecs = false := (Prod.mk.inj heq).1.symm
      have e2 : e = (v.idx, v.before) := (Prod.mk.inj heq).2
      refine ⟨e1, ?_⟩
      rw [List.mem_flatMap] at he
      obtain ⟨k, -, he⟩ := he
      rw [List.mem_map] at he
      obtain ⟨p, hp, hkp⟩ := he
      have : k = v.idx := by rw [e2] at hkp; exact (Prod.mk.inj hkp).1
      subst this
      by_contra hc
      rw [List.getD, List.getElem?_eq_none (by omega)] at hp
      simp at hp
    · have hnil : (forUp cfg.thread ([] : List (List P)).length cfg.stride) = [] := by
        rw [forUp, dif_neg (by simp)]
      rw [hnil] at hm
      simp at hm
  have hvs : (vs.map Visit.before).Perm
        ((List.range cells.length).flatMap fun k => (cells.getD k []).filter fun p => cfg.ful p && cfg.mine k) := by
    have h1 := flatMap_group (fun v : Visit P => v.idx) (fun v => [v.before]) cells.length vs (fun v hv => (hidx v hv).2)
    have e1 : (vs.flatMap fun v => [v.before]) = vs.map Visit.before := by
      rw [List.map_eq_flatMap]
    rw [e1] at h1
    refine h1.symm.trans ?_ |>.trans (flatMap_perm_congr fun k _ => hbef k)
    apply flatMap_perm_congr
    intro k _
    unfold beforesAt
    rw [List.map_eq_flatMap]
    have : (vs.filter fun v => v.inVecs == false && v.idx == k) = vs.filter fun v => v.idx == k := by
      apply List.filter_congr
      intro v hv
      rw [(hidx v hv).1]; simp
    rw [this]
  refine ⟨vs, t, ?_, a3, ?_, hvs⟩
  · intro n hn
    rcases a10 with ⟨-, hl⟩ | ⟨-, ⟨v, hlast, hdel⟩, -, -⟩
    · have hlen : vs.length ≤ cells.flatten.length := by
        have := hvs.length_eq
        rw [List.length_map] at this
        rw [this, ← flatten_range cells, List.length_flatMap, List.length_flatMap]
        apply List.sum_le_sum
        intro k _
        exact List.length_filter_le _ _
      have := hl (n - (vs.length + 1))
      rw [show n - (vs.length + 1) + vs.length + 1 = n by omega] at this
      exact this
    · have hm : v ∈ vs := List.mem_of_getLast? hlast
      rw [hafter v hm] at hdel
      cases hdel
  · intro k
    have h6 := a6 k
    rw [haft] at h6
    have h7 := (h6.trans ((((hbef k).map g)).append_left _))
    have hsp := (List.filter_append_perm (fun p => cfg.ful p && cfg.mine k) (cells.getD k [])).symm
    have h8 : (t.cells.getD k [] ++ beforesAt false k vs).Perm
        ((((cells.getD k []).filter fun p => !(cfg.ful p && cfg.mine k)) ++
          ((cells.getD k []).filter fun p => cfg.ful p && cfg.mine k).map g) ++ beforesAt false k vs) := by
      refine h7.trans ((hsp.append_right _).trans ?_)
      rw [List.append_assoc]
      refine List.perm_append_comm.trans ?_
      exact List.Perm.append_left _ (hbef k).symm
    exact (List.perm_append_right_iff _).1 h8


/-! ### Collecting the leaving particles -/

variable {c : LHParams}

/-- What the loop body makes of a particle. -/
def marked (c : LHParams) (p : Particle) : Particle :=
  if p.own = .halo then { p with own := .dummy } else if isLeaving c p then { p with own := .dummy } else p

theorem markBody_eq : markBody c = fun _ p => some (marked c p) := by
  funext _ p
  unfold markBody marked
  split
  · rfl
  · split <;> rfl

/-- Storage as it is between operations. -/
structure StoreOk (c : LHParams) (m : Nat) (cells : List (List Particle)) : Prop where
  len : cells.length = c.block.numCells
  place : ∀ k, ∀ p ∈ cells.getD k [], PlaceOk c m k p
  small : cells.flatten.length < 2 ^ 64

theorem length_le_flatten {α : Type} {L : List (List α)} {l : List α} (h : l ∈ L) : l.length ≤ L.flatten.length :=
  (List.sublist_flatten_of_mem h).length_le

theorem block_numCells_pos (h : LHParamsOk c) : 0 < c.block.numCells := by
  have := flatIndex_lt h.box (csf := c.csf) c.bMin
  have h2 : (CellBlock.rebuild id c.bMin c.bMax c.il c.csf).flatIndexOfPosition c.bMin < c.block.numCells := this
  omega

theorem StoreOk.storage (h : LHParamsOk c) {m : Nat} {cells : List (List Particle)} (hs : StoreOk c m cells)
    {vecs : List (List Particle)} (hv : ∀ l ∈ vecs, l.length < 2 ^ 64) (hn : vecs.length < 2 ^ 64) :
    LCStorage c.block cells vecs where
  len := hs.len
  pos := block_numCells_pos h
  ownedIn k p hp := (hs.place k p hp).ownedIn
  haloIn k p hp := (hs.place k p hp).haloIn
  small l hl := lt_of_le_of_lt (length_le_flatten hl) hs.small
  vsmall := hv
  vnum := hn

theorem disp_mono {a b : Rat} (hab : a ≤ b) {p q : V3 Rat} (hd : Displaced a p q) : Displaced b p q :=
  ⟨hd.1.trans hab, hd.2.1.trans hab, hd.2.2.trans hab⟩

theorem spt_mono (h : LHParamsOk c) {m n : Nat} (hmn : m ≤ n) : c.skinPerTimestep * m ≤ c.skinPerTimestep * n :=
  mul_le_mul_of_nonneg_left (by exact_mod_cast hmn) h.skinPos

theorem marked_pos (p : Particle) : (marked c p).pos = p.pos := by
  unfold marked; split
  · rfl
  · split <;> rfl

theorem marked_own (p : Particle) : (marked c p).own ≠ .dummy → marked c p = p ∧ p.own ≠ .halo ∧ isLeaving c p = false := by
  unfold marked
  split
  · intro hx; exact absurd rfl hx
  · split
    · intro hx; exact absurd rfl hx
    · rename_i h1 h2
      intro _; exact ⟨rfl, h1, by simpa using h2⟩

/-- The thread `t` looks at cell `k` when it goes through the volume `vol`. -/
def Looks (c : LHParams) (contSteps : Nat) (vol : V3 Rat × V3 Rat) (t k : Nat) : Prop :=
  (lcRegionCfg c.block c.bMin c.bMax c.il (c.skinPerTimestep * contSteps) vol.1 vol.2 (ibOwned ||| ibHalo) c.numThreads t).mine k = true

/-- One loop of one thread. -/
theorem collectOne_spec (h : LHParamsOk c) {m cs : Nat} (hm : m ≤ cs) {cells : List (List Particle)} (hs : StoreOk c m cells)
    (vol : V3 Rat × V3 Rat) (t : Nat) :
    ∃ cells' leave, collectOne c cs cells vol t = some (cells', leave) ∧ StoreOk c m cells' ∧
      cells'.flatten.length = cells.flatten.length ∧
      (∀ k, ∀ q ∈ cells'.getD k [], q.own ≠ .dummy → q ∈ cells.getD k []) ∧
      ((cells'.flatten.filter fun p => decide (p.own = .owned)) ++ leave).Perm (cells.flatten.filter fun p => decide (p.own = .owned)) ∧
      (∀ p ∈ leave, inBoxB p.pos c.bMin c.bMax = false) ∧
      (∀ k, ∀ q ∈ cells'.getD k [], (q.own = .halo ∨ q.own = .owned ∧ inBoxB q.pos c.bMin c.bMax = false) → Looks c cs vol t k →
        InBox q.pos vol.1 vol.2 → InBox q.pos (c.bMin.addScalar (-c.il)) (c.bMax.addScalar c.il) → False) ∧
      (∀ k, ∀ p ∈ cells.getD k [], ¬ InBox p.pos (c.bMin.addScalar (-c.il)) (c.bMax.addScalar c.il) → p ∈ cells'.getD k []) ∧
      (∀ k, ∀ q ∈ cells'.getD k [], ∃ p ∈ cells.getD k [], q.pos = p.pos) := by
  have hst := hs.storage h (vecs := []) (by simp) (by simp)
  have hmv : MovedAtMost c.block (c.skinPerTimestep * cs) cells := by
    intro k p hp
    obtain ⟨old, h1, h2⟩ := (hs.place k p hp).near
    exact ⟨old, h1, disp_mono (spt_mono h hm) h2⟩
  have hg := region_goodStorage (m := c.skinPerTimestep * cs) (behavior := ibOwned ||| ibHalo) h.box hst (fun hx => absurd hx (by decide)) hmv
    vol.1 vol.2 c.numThreads t h.threads
  obtain ⟨vs, ts, b1, b2, b3, b4⟩ := inplace_loop _ (marked c) hg
  have hful : ∀ p, (lcRegionCfg (CellBlock.rebuild id c.bMin c.bMax c.il c.csf) c.bMin c.bMax c.il (c.skinPerTimestep * cs) vol.1 vol.2
      (ibOwned ||| ibHalo) c.numThreads t).ful p = true → p.own ≠ .dummy := by
    intro p hp hd
    simp only [lcRegionCfg, Bool.and_eq_true] at hp
    rw [hd] at hp
    exact absurd hp.2 (by decide)
  have hlook : ∀ k, Looks c cs vol t k ↔ (lcRegionCfg (CellBlock.rebuild id c.bMin c.bMax c.il c.csf) c.bMin c.bMax c.il (c.skinPerTimestep * cs) vol.1 vol.2
      (ibOwned ||| ibHalo) c.numThreads t).mine k = true := fun k => Iff.rfl
  have hfulIn : ∀ p, InBox p.pos vol.1 vol.2 → InBox p.pos (c.bMin.addScalar (-c.il)) (c.bMax.addScalar c.il) → p.own ≠ .dummy →
      (lcRegionCfg (CellBlock.rebuild id c.bMin c.bMax c.il c.csf) c.bMin c.bMax c.il (c.skinPerTimestep * cs) vol.1 vol.2
      (ibOwned ||| ibHalo) c.numThreads t).ful p = true := by
    intro p h1 h2 h3
    simp only [lcRegionCfg, Bool.and_eq_true]
    refine ⟨by rw [clamped_iff]; exact decide_eq_true ⟨h1, h2⟩, ?_⟩
    cases ho : p.own
    · exact absurd ho h3
    · rfl
    · rfl
  have hfulFar : ∀ p, (lcRegionCfg (CellBlock.rebuild id c.bMin c.bMax c.il c.csf) c.bMin c.bMax c.il (c.skinPerTimestep * cs) vol.1 vol.2
      (ibOwned ||| ibHalo) c.numThreads t).ful p = true → InBox p.pos (c.bMin.addScalar (-c.il)) (c.bMax.addScalar c.il) := by
    intro p hp
    simp only [lcRegionCfg, Bool.and_eq_true] at hp
    rw [clamped_iff, decide_eq_true_eq] at hp
    exact hp.1.2
  generalize hcfg : lcRegionCfg (CellBlock.rebuild id c.bMin c.bMax c.il c.csf) c.bMin c.bMax c.il (c.skinPerTimestep * cs) vol.1 vol.2
      (ibOwned ||| ibHalo) c.numThreads t = cfg at hg b1 b3 b4 hful hlook hfulIn hfulFar
  have hflat' : (List.range cells.length).flatMap (fun k => ts.cells.getD k []) = ts.cells.flatten := by
    rw [← b2]; exact flatten_range ts.cells
  have hmem : ∀ k, ∀ q ∈ ts.cells.getD k [], (q ∈ cells.getD k [] ∧ (cfg.ful q && cfg.mine k) = false) ∨
      ∃ p ∈ cells.getD k [], q = marked c p ∧ cfg.ful p = true := by
    intro k q hq
    rcases List.mem_append.1 ((b3 k).subset hq) with hq | hq
    · left
      rw [List.mem_filter] at hq
      exact ⟨hq.1, Bool.not_eq_true' _ ▸ hq.2⟩
    · right
      rw [List.mem_map] at hq
      obtain ⟨p, hp, rfl⟩ := hq
      rw [List.mem_filter, Bool.and_eq_true] at hp
      exact ⟨p, hp.1, rfl, hp.2.1⟩
  have hlen : ts.cells.flatten.length = cells.flatten.length := by
    rw [← hflat', ← flatten_range cells, List.length_flatMap, List.length_flatMap]
    congr 1
    apply List.map_congr_left
    intro k _
    rw [(b3 k).length_eq, List.length_append, List.length_map, ← List.length_append]
    have := (List.filter_append_perm (fun p => cfg.ful p && cfg.mine k) (cells.getD k [])).length_eq
    rw [List.length_append] at this ⊢
    omega
  refine ⟨ts.cells, (vs.map Visit.before).filter (isLeaving c), ?_, ⟨by rw [b2]; exact hs.len, ?_, by rw [hlen]; exact hs.small⟩, hlen, ?_, ?_, ?_, ?_, ?_, ?_⟩
  · have hcfg2 : lcRegionCfg c.block c.bMin c.bMax c.il (c.skinPerTimestep * cs) vol.1 vol.2 (ibOwned ||| ibHalo) c.numThreads t = cfg := hcfg
    unfold collectOne
    simp only [hcfg2]
    rw [markBody_eq, b1 _ (Nat.le_refl _)]
    rfl
  · intro k q hq
    rcases hmem k q hq with ⟨hq, -⟩ | ⟨p, hp, rfl, -⟩
    · exact hs.place k q hq
    · have hpl := hs.place k p hp
      by_cases hd : (marked c p).own = .dummy
      · refine ⟨?_, ?_, by rw [marked_pos]; exact hpl.near, ?_⟩ <;> (intro hx; rw [hd] at hx; cases hx)
      · rw [(marked_own p hd).1]; exact hpl
  · intro k q hq hd
    rcases hmem k q hq with ⟨hq, -⟩ | ⟨p, hp, rfl, -⟩
    · exact hq
    · rw [(marked_own p hd).1]; exact hp
  · have e2 : ((vs.map Visit.before).filter (isLeaving c)).Perm
        ((List.range cells.length).flatMap fun k => ((cells.getD k []).filter fun p => cfg.ful p && cfg.mine k).filter (isLeaving c)) := by
      rw [flatMap_filter]; exact b4.filter _
    have e1 : (ts.cells.flatten.filter fun p => decide (p.own = .owned)).Perm
        ((List.range cells.length).flatMap fun k => (ts.cells.getD k []).filter fun p => decide (p.own = .owned)) := by
      rw [flatMap_filter, hflat']
    refine (e1.append e2).trans ?_
    rw [show cells.flatten.filter (fun p => decide (p.own = .owned)) =
      (List.range cells.length).flatMap fun k => (cells.getD k []).filter fun p => decide (p.own = .owned) by
        rw [flatMap_filter, flatten_range]]
    refine (List.flatMap_append_perm _ _ _).trans (flatMap_perm_congr fun k _ => ?_)
    have h3 := (b3 k).filter fun p => decide (p.own = .owned)
    rw [List.filter_append] at h3
    refine (h3.append_right _).trans ?_
    have hsp := (List.filter_append_perm (fun p => cfg.ful p && cfg.mine k) (cells.getD k [])).filter fun p => decide (p.own = .owned)
    rw [List.filter_append] at hsp
    refine List.Perm.trans ?_ hsp
    rw [List.append_assoc]
    refine List.perm_append_comm.trans ?_
    apply List.Perm.append_right
    set l := (cells.getD k []).filter fun p => cfg.ful p && cfg.mine k with hl
    have hl1 : ∀ p ∈ l, p.own ≠ .dummy := by
      intro p hp
      rw [hl, List.mem_filter, Bool.and_eq_true] at hp
      exact hful p hp.2.1
    clear_value l
    clear hsp h3 hl
    induction l with
    | nil => exact List.Perm.refl _
    | cons p l ih =>
      have ih := ih fun q hq => hl1 q (List.mem_cons_of_mem _ hq)
      have hp := hl1 p List.mem_cons_self
      rw [List.map_cons]
      by_cases hh : p.own = .halo
      · have : (marked c p).own = .dummy := by unfold marked; rw [if_pos hh]
        rw [List.filter_cons_of_neg (by simp [this]), List.filter_cons_of_neg (by simp [isLeaving, hh]),
          List.filter_cons_of_neg (by simp [hh])]
        exact ih
      · have ho : p.own = .owned := by
          cases ho : p.own
          · exact absurd ho hp
          · rfl
          · exact absurd ho hh
        by_cases hlv : isLeaving c p = true
        · have : (marked c p).own = .dummy := by unfold marked; rw [if_neg hh, if_pos hlv]
          rw [List.filter_cons_of_neg (by simp [this]), List.filter_cons_of_pos hlv, List.filter_cons_of_pos (by simp [ho])]
          exact List.perm_middle.trans (ih.cons _)
        · have : marked c p = p := by unfold marked; rw [if_neg hh, if_neg hlv]
          rw [this, List.filter_cons_of_pos (by simp [ho]), List.filter_cons_of_neg hlv, List.filter_cons_of_pos (by simp [ho])]
          exact ih.cons _
  · intro p hp
    rw [List.mem_filter] at hp
    simp only [isLeaving, Bool.and_eq_true, Bool.not_eq_true'] at hp
    exact hp.2.2
  · intro k q hq hown hlk hv hcl
    have hd : q.own ≠ .dummy := by
      rcases hown with ho | ⟨ho, -⟩ <;> rw [ho] <;> exact fun hx => by cases hx
    rcases hmem k q hq with ⟨-, hn⟩ | ⟨p, -, rfl, -⟩
    · rw [hfulIn q hv hcl hd, (hlook k).1 hlk] at hn
      cases hn
    · obtain ⟨e1, e2, e3⟩ := marked_own p hd
      rw [e1] at hown
      rcases hown with ho | ⟨ho, hb⟩
      · exact e2 ho
      · simp [isLeaving, ho, hb] at e3
  · intro k p hp hfar
    refine (b3 k).symm.subset (List.mem_append_left _ (List.mem_filter.2 ⟨hp, ?_⟩))
    cases hx : cfg.ful p with
    | false => rfl
    | true => exact absurd (hfulFar p hx) hfar
  · intro k q hq
    rcases hmem k q hq with ⟨hq, -⟩ | ⟨p, hp, rfl, -⟩
    · exact ⟨q, hq, rfl⟩
    · exact ⟨p, hp, marked_pos p⟩

/-- All loops. -/
theorem collectLeaving_spec (h : LHParamsOk c) {m cs : Nat} (hm : m ≤ cs) (order : List ((V3 Rat × V3 Rat) × Nat)) :
    ∀ (cells : List (List Particle)) (out : List Particle), StoreOk c m cells →
    ∃ cells' leave,
      order.foldl (fun acc job => acc.bind fun a => (collectOne c cs a.1 job.1 job.2).map fun r => (r.1, a.2 ++ r.2))
        (some (cells, out)) = some (cells', out ++ leave) ∧ StoreOk c m cells' ∧
      cells'.flatten.length = cells.flatten.length ∧
      (∀ k, ∀ q ∈ cells'.getD k [], q.own ≠ .dummy → q ∈ cells.getD k []) ∧
      ((cells'.flatten.filter fun p => decide (p.own = .owned)) ++ leave).Perm (cells.flatten.filter fun p => decide (p.own = .owned)) ∧
      (∀ p ∈ leave, inBoxB p.pos c.bMin c.bMax = false) ∧
      (∀ job ∈ order, ∀ k, ∀ q ∈ cells'.getD k [], (q.own = .halo ∨ q.own = .owned ∧ inBoxB q.pos c.bMin c.bMax = false) →
        Looks c cs job.1 job.2 k →
        InBox q.pos job.1.1 job.1.2 → InBox q.pos (c.bMin.addScalar (-c.il)) (c.bMax.addScalar c.il) → False) ∧
      (∀ k, ∀ p ∈ cells.getD k [], ¬ InBox p.pos (c.bMin.addScalar (-c.il)) (c.bMax.addScalar c.il) → p ∈ cells'.getD k []) ∧
      (∀ k, ∀ q ∈ cells'.getD k [], ∃ p ∈ cells.getD k [], q.pos = p.pos) := by
  induction order with
  | nil =>
    intro cells out hs
    exact ⟨cells, [], by simp, hs, rfl, fun k q hq _ => hq, by simp, by simp, by simp, fun k p hp _ => hp, fun k q hq => ⟨q, hq, rfl⟩⟩
  | cons job order ih =>
    intro cells out hs
    obtain ⟨c1, l1, a1, a2, a3, a4, a5, a6, a7, a8, a9⟩ := collectOne_spec h hm hs job.1 job.2
    obtain ⟨c2, l2, b1, b2, b3, b4, b5, b6, b7, b8, b9⟩ := ih c1 (out ++ l1) a2
    refine ⟨c2, l1 ++ l2, ?_, b2, b3.trans a3, fun k q hq hd => a4 k q (b4 k q hq hd) hd, ?_, ?_, ?_,
      fun k p hp hf => b8 k p (a8 k p hp hf) hf, fun k q hq => by
        obtain ⟨p, hp, e⟩ := b9 k q hq
        obtain ⟨r, hr, e'⟩ := a9 k p hp
        exact ⟨r, hr, e.trans e'⟩⟩
    · rw [List.foldl_cons]
      simp only [Option.bind_some, a1, Option.map_some]
      rw [b1, List.append_assoc]
    · refine List.Perm.trans ?_ ((b5.append_right l1).trans a5)
      rw [List.append_assoc]
      exact List.Perm.append_left _ List.perm_append_comm
    · intro p hp
      rcases List.mem_append.1 hp with hp | hp
      · exact a6 p hp
      · exact b6 p hp
    · intro j hj k q hq ho hl hv hc
      rcases List.mem_cons.1 hj with rfl | hj
      · have hd : q.own ≠ .dummy := by
          rcases ho with ho | ⟨ho, -⟩ <;> rw [ho] <;> exact fun hx => by cases hx
        exact a7 k q (b4 k q hq hd) ho hl hv hc
      · exact b7 j hj k q hq ho hl hv hc

/-- The six volumes cover everything outside the box within the interaction length. -/
theorem volumes_cover (h : LHParamsOk c) {p : V3 Rat} (hout : ¬ InBox p c.bMin c.bMax)
    (hin : InBox p (c.bMin.addScalar (-c.il)) (c.bMax.addScalar c.il)) : ∃ vol ∈ haloVolumes c, InBox p vol.1 vol.2 := by
  have h1 := h.cutoff
  have h2 : 0 ≤ c.skin := by
    unfold LHParams.skin
    exact mul_nonneg h.skinPos (by positivity)
  have wx := h.box.wx
  have wy := h.box.wy
  have wz := h.box.wz
  obtain ⟨⟨x1, x2⟩, ⟨y1, y2⟩, z1, z2⟩ := hin
  simp only [V3.addScalar] at x1 x2 y1 y2 z1 z2
  unfold haloVolumes
  simp only [List.mem_cons, List.not_mem_nil, or_false, exists_eq_or_imp, exists_eq_left]
  simp only [InBox, V3.addScalar] at hout ⊢
  by_cases hy1 : p.y < c.bMin.y + c.skin / 2
  · right; right; right; right; left
    refine ⟨⟨?_, ?_⟩, ⟨?_, ?_⟩, ?_, ?_⟩ <;> linarith
  by_cases hy2 : c.bMax.y - c.skin / 2 ≤ p.y
  · right; right; right; right; right
    refine ⟨⟨?_, ?_⟩, ⟨?_, ?_⟩, ?_, ?_⟩ <;> linarith
  rw [not_lt] at hy1
  rw [not_le] at hy2
  by_cases hx1 : p.x < c.bMin.x + c.skin / 2
  · by_cases hz : p.z < c.bMax.z - c.skin / 2
    · left
      refine ⟨⟨?_, ?_⟩, ⟨?_, ?_⟩, ?_, ?_⟩ <;> linarith
    · rw [not_lt] at hz
      right; right; left
      refine ⟨⟨?_, ?_⟩, ⟨?_, ?_⟩, ?_, ?_⟩ <;> linarith
  rw [not_lt] at hx1
  by_cases hx2 : c.bMax.x - c.skin / 2 ≤ p.x
  · by_cases hz : p.z < c.bMin.z + c.skin / 2
    · right; right; right; left
      refine ⟨⟨?_, ?_⟩, ⟨?_, ?_⟩, ?_, ?_⟩ <;> linarith
    · rw [not_lt] at hz
      right; left
      refine ⟨⟨?_, ?_⟩, ⟨?_, ?_⟩, ?_, ?_⟩ <;> linarith
  rw [not_le] at hx2
  by_cases hz1 : p.z < c.bMin.z
  · right; right; right; left
    refine ⟨⟨?_, ?_⟩, ⟨?_, ?_⟩, ?_, ?_⟩ <;> linarith
  · have hz2 : c.bMax.z ≤ p.z := by
      by_contra hc
      exact hout ⟨⟨by linarith, by linarith⟩, ⟨by linarith, by linarith⟩, by linarith, by linarith⟩
    right; right; left
    refine ⟨⟨?_, ?_⟩, ⟨?_, ?_⟩, ?_, ?_⟩ <;> linarith

/-- Some thread looks at the cell of a particle in a volume. -/
theorem some_thread_looks (h : LHParamsOk c) {m cs : Nat} (hm : m ≤ cs) {k : Nat} {q : Particle} (hq : PlaceOk c m k q)
    (vol : V3 Rat × V3 Rat) (hv : InBox q.pos vol.1 vol.2)
    (hin : InBox q.pos (c.bMin.addScalar (-c.il)) (c.bMax.addScalar c.il)) : ∃ t < c.numThreads, Looks c cs vol t k := by
  obtain ⟨old, hold, hd⟩ := hq.near
  have hd := disp_mono (spt_mono h hm) hd
  have hr := region_cell (m := c.skinPerTimestep * cs) h.box (lo := vol.1) (hi := vol.2) (pos := q.pos) (old := old) hd.1 hd.2.1 hd.2.2
    (by rw [clamped_iff]; exact decide_eq_true ⟨hv, hin⟩)
  have hold' : (CellBlock.rebuild id c.bMin c.bMax c.il c.csf).flatIndexOfPosition old = k := hold
  simp only [hold'] at hr
  obtain ⟨-, h1, h2⟩ := hr
  have hst : iterStride (ibOwned ||| ibHalo) c.numThreads = c.numThreads := rfl
  refine ⟨(k - c.block.flatIndexOfPosition ((V3.maximum vol.1 (c.bMin.addScalar (-c.il))).addScalar (-(c.skinPerTimestep * cs)))) % c.numThreads,
    Nat.mod_lt _ h.threads, ?_⟩
  unfold Looks IterCfg.mine
  rw [decide_eq_true_eq]
  simp only [lcRegionCfg]
  rw [hst, mem_forUp h.threads]
  have hth : ∀ n, iterThread (ibOwned ||| ibHalo) n = n := fun n => rfl
  rw [hth]
  set s0 := c.block.flatIndexOfPosition ((V3.maximum vol.1 (c.bMin.addScalar (-c.il))).addScalar (-(c.skinPerTimestep * cs)))
  set e0 := c.block.flatIndexOfPosition ((V3.minimum vol.2 (c.bMax.addScalar c.il)).addScalar (c.skinPerTimestep * cs))
  have h1' : s0 ≤ k := h1
  have h2' : k ≤ e0 := h2
  have hmod := Nat.mod_le (k - s0) c.numThreads
  refine ⟨by omega, by omega, ?_⟩
  have : k - (s0 + (k - s0) % c.numThreads) = (k - s0) - (k - s0) % c.numThreads := by omega
  rw [this]
  exact Nat.sub_mod_eq_zero_of_mod_eq (by rw [Nat.mod_mod])

/-- An owned particle that has moved at most `m` steps is within the interaction length of the box, if `m` is at most the
rebuild frequency. -/
theorem owned_near_box (h : LHParamsOk c) {m : Nat} (hm : m ≤ c.rebuildFrequency) {k : Nat} {q : Particle} (hq : PlaceOk c m k q)
    (ho : q.own = .owned) : InBox q.pos (c.bMin.addScalar (-c.il)) (c.bMax.addScalar c.il) := by
  obtain ⟨old, hold, hd⟩ := hq.near
  have hh := hq.ownedIn ho
  rw [← hold, halo_iff_outside h, Bool.not_eq_false', inBoxB_iff, decide_eq_true_eq] at hh
  have hs : c.skinPerTimestep * m ≤ c.il := (spt_mono h hm).trans h.cutoff
  obtain ⟨⟨x1, x2⟩, ⟨y1, y2⟩, z1, z2⟩ := hh
  obtain ⟨dx, dy, dz⟩ := hd
  rw [abs_le] at dx dy dz
  simp only [InBox, V3.addScalar]
  refine ⟨⟨?_, ?_⟩, ⟨?_, ?_⟩, ?_, ?_⟩ <;> linarith [dx.1, dx.2, dy.1, dy.2, dz.1, dz.2]

/-- Collecting the leaving particles while the cells are kept: exactly the owned particles outside the box are handed back, the
others stay; halo particles within the interaction length disappear. -/
theorem collectLeaving_exact (h : LHParamsOk c) {m cs : Nat} (hm : m ≤ cs) (hf : m ≤ c.rebuildFrequency)
    {order : List ((V3 Rat × V3 Rat) × Nat)} (ho : order.Perm ((haloVolumes c).flatMap fun v => (List.range c.numThreads).map fun t => (v, t)))
    {cells : List (List Particle)} (hs : StoreOk c m cells) :
    ∃ cells' leave, collectLeaving c cs order cells = some (cells', leave) ∧ StoreOk c m cells' ∧
      cells'.flatten.length = cells.flatten.length ∧
      (∀ k, ∀ q ∈ cells'.getD k [], q.own ≠ .dummy → q ∈ cells.getD k []) ∧
      (cells'.flatten.filter fun p => decide (p.own = .owned)).Perm
        ((cells.flatten.filter fun p => decide (p.own = .owned)).filter fun p => inBoxB p.pos c.bMin c.bMax) ∧
      leave.Perm ((cells.flatten.filter fun p => decide (p.own = .owned)).filter fun p => !inBoxB p.pos c.bMin c.bMax) ∧
      (∀ q ∈ cells'.flatten, q.own = .halo → ¬ InBox q.pos (c.bMin.addScalar (-c.il)) (c.bMax.addScalar c.il) ∨
        InBox q.pos c.bMin c.bMax) ∧
      (∀ k, ∀ p ∈ cells.getD k [], ¬ InBox p.pos (c.bMin.addScalar (-c.il)) (c.bMax.addScalar c.il) → p ∈ cells'.getD k []) ∧
      (∀ k, ∀ q ∈ cells'.getD k [], ∃ p ∈ cells.getD k [], q.pos = p.pos) := by
  obtain ⟨cells', leave, a1, a2, a3, a4, a5, a6, a7, a8, a9⟩ := collectLeaving_spec h hm order cells [] hs
  have hgone : ∀ k, ∀ q ∈ cells'.getD k [], (q.own = .halo ∨ q.own = .owned ∧ inBoxB q.pos c.bMin c.bMax = false) →
      InBox q.pos (c.bMin.addScalar (-c.il)) (c.bMax.addScalar c.il) → ¬ InBox q.pos c.bMin c.bMax → False := by
    intro k q hq hown hin hout
    obtain ⟨vol, hvol, hv⟩ := volumes_cover h hout hin
    obtain ⟨t, ht, hl⟩ := some_thread_looks h hm (a2.place k q hq) vol hv hin
    exact a7 (vol, t) (ho.symm.subset (List.mem_flatMap.2 ⟨vol, hvol, List.mem_map.2 ⟨t, List.mem_range.2 ht, rfl⟩⟩)) k q hq hown hl hv hin
  have hstay : ∀ q ∈ cells'.flatten.filter (fun p => decide (p.own = .owned)), inBoxB q.pos c.bMin c.bMax = true := by
    intro q hq
    rw [List.mem_filter, decide_eq_true_eq] at hq
    obtain ⟨k, hk⟩ := mem_flatten_getD'.1 hq.1
    by_contra hc
    rw [Bool.not_eq_true] at hc
    refine hgone k q hk (Or.inr ⟨hq.2, hc⟩) (owned_near_box h hf (a2.place k q hk) hq.2) ?_
    rw [inBoxB_iff, decide_eq_false_iff_not] at hc
    exact hc
  refine ⟨cells', leave, ?_, a2, a3, a4, ?_, ?_, ?_, a8, a9⟩
  · unfold collectLeaving; rw [a1, List.nil_append]
  · have hnil : leave.filter (fun p => inBoxB p.pos c.bMin c.bMax) = [] :=
      List.filter_eq_nil_iff.2 fun p hp => by rw [a6 p hp]; simp
    have hall := List.filter_eq_self.2 hstay
    have := a5.filter fun p => inBoxB p.pos c.bMin c.bMax
    rw [List.filter_append, hnil, hall, List.append_nil] at this
    exact this
  · have hall : leave.filter (fun p => !inBoxB p.pos c.bMin c.bMax) = leave :=
      List.filter_eq_self.2 fun p hp => by rw [a6 p hp]; rfl
    have hnil : (cells'.flatten.filter fun p => decide (p.own = .owned)).filter (fun p => !inBoxB p.pos c.bMin c.bMax) = [] :=
      List.filter_eq_nil_iff.2 fun p hp => by rw [hstay p hp]; simp
    have := a5.filter fun p => !inBoxB p.pos c.bMin c.bMax
    rw [List.filter_append, hnil, hall, List.nil_append] at this
    exact this
  · intro q hq hh
    obtain ⟨k, hk⟩ := mem_flatten_getD'.1 hq
    by_contra hc
    rw [not_or, not_not] at hc
    exact hgone k q hk (Or.inl hh) hc.1 hc.2

end Verif
