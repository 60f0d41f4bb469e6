import Verif.Lemmas.OctreeIterEnd
/-! All threads together visit everything once. -/
namespace Verif.Octree
open Spec

section
variable {P : Type}

/-- What is assumed about the particles. -/
structure IterOk (cfg : OTIterCfg P) (owned halo : OTree P) (vecs : List (List P)) : Prop where
  depth : DepthAtMost 18 owned ∧ DepthAtMost 18 halo
  irr : ∀ e ∈ allLeaves cfg owned halo, ∀ r, cfg.region = some r → boxesOverlap e.2.1.lo e.2.1.hi r.1 r.2 = false → ∀ p ∈ e.2.2, cfg.ful p = false
  noOwned : cfg.wantsOwned = false → ∀ p ∈ collectAll owned, cfg.ful p = false
  noHalo : cfg.wantsHalo = false → cfg.wantsOwned = true → ∀ p ∈ collectAll halo, cfg.ful p = false
  small : (collectAll owned).length < 2 ^ 64 ∧ (collectAll halo).length < 2 ^ 64
  vsmall : ∀ l ∈ vecs, l.length < 2 ^ 64
  vnum : vecs.length < 2 ^ 64

variable {cfg : OTIterCfg P} {owned halo : OTree P} {vecs : List (List P)}

theorem mem_under_collect {t : OTree P} {b : Box} {ds : List Nat} {e : Leaf P} (he : e ∈ under t b ds) : ∀ p ∈ e.2.2, p ∈ collectAll t := by
  intro p hp
  have h : collectAll t = (under t b ds).flatMap fun e => e.2.2 := by
    rw [collectAll_eq t [], List.flatMap_def, List.flatMap_def, under_contents t b ds []]
  rw [h, List.mem_flatMap]
  exact ⟨e, he, hp⟩

theorem leaf_length_le {t : OTree P} {b : Box} {ds : List Nat} {e : Leaf P} (he : e ∈ under t b ds) : e.2.2.length ≤ (collectAll t).length := by
  have h : collectAll t = (under t b ds).flatMap fun e => e.2.2 := by
    rw [collectAll_eq t [], List.flatMap_def, List.flatMap_def, under_contents t b ds []]
  rw [h, List.length_flatMap]
  exact List.single_le_sum (l := (under t b ds).map fun e => e.2.2.length) (by simp) _ (List.mem_map_of_mem he)

theorem flat_cell_cases {S : Nat} (hS : 0 < S) (E : List (Leaf P)) (c : Nat) :
    (flatCells S E).getD c [] = [] ∨ ∃ k e, c = k * S ∧ E[k]? = some e ∧ (flatCells S E).getD c [] = e.2.2 := by
  by_cases hc : c % S = 0
  · have h := Nat.div_add_mod c S
    rw [hc, Nat.add_zero, Nat.mul_comm] at h
    cases he : E[c / S]? with
    | none =>
      left
      rw [← h, List.getD_eq_getElem?_getD, flatCells_getElem? hS, he]
      rfl
    | some e =>
      right
      refine ⟨c / S, e, h.symm, he, ?_⟩
      conv_lhs => rw [← h]
      exact flatCells_getD hS he
  · exact Or.inl (flatCells_other hS E c hc)

theorem flat_good (hS : 0 < cfg.stride) (h : IterOk cfg owned halo vecs) :
    GoodStorage (flatOf cfg owned halo) (flatCells cfg.stride (allLeaves cfg owned halo)) vecs := by
  refine ⟨hS, ?_, ?_, h.vsmall, h.vnum⟩
  · intro c hc p hp
    rcases flat_cell_cases hS (allLeaves cfg owned halo) c with h0 | ⟨k, e, rfl, he, h0⟩
    · rw [h0] at hp; cases hp
    · rw [h0] at hp
      have hk : k * cfg.stride / cfg.stride = k := Nat.mul_div_cancel _ hS
      simp only [flatOf, flatCfg, Bool.or_eq_false_iff] at hc
      obtain ⟨-, hc⟩ := hc
      cases hr : cfg.region with
      | none => rw [hr] at hc; cases hc
      | some r =>
        rw [hr] at hc
        simp only [hk, shapeOf, List.getElem?_map, he, Option.map_some] at hc
        exact h.irr e (List.mem_of_getElem? he) r hr hc p hp
  · intro l hl
    obtain ⟨e, he, hl⟩ := List.mem_flatMap.1 hl
    rcases List.mem_cons.1 hl with rfl | hl
    · rw [allLeaves, List.mem_append] at he
      rcases he with he | he
      · exact lt_of_le_of_lt (leaf_length_le he) h.small.1
      · exact lt_of_le_of_lt (leaf_length_le he) h.small.2
    · rw [List.mem_replicate] at hl
      rw [hl.2]
      simp

/-- The particles outside of the visited range are not wanted. -/
theorem flat_outside (hS : 0 < cfg.stride) (h : IterOk cfg owned halo vecs) (k : Nat)
    (hk : k < (flatOf cfg owned halo).startC ∨ (flatOf cfg owned halo).endC < k) :
    ∀ p ∈ (flatCells cfg.stride (allLeaves cfg owned halo)).getD k [], cfg.ful p = false := by
  intro p hp
  rcases flat_cell_cases hS (allLeaves cfg owned halo) k with h0 | ⟨n, e, rfl, he, h0⟩
  · rw [h0] at hp; cases hp
  · rw [h0] at hp
    have hst : (flatOf cfg owned halo).startC = startLeaf cfg owned * cfg.stride := by
      simp [flatOf, flatCfg, startLeaf, ownedLeaves]
    have hen : (flatOf cfg owned halo).endC = endLeaf cfg owned halo * cfg.stride - 1 := by
      simp [flatOf, flatCfg, endLeaf, shapeOf, ownedLeaves]
    rcases hk with hk | hk
    · rw [hst] at hk
      have hn := Nat.lt_of_mul_lt_mul_right hk
      unfold startLeaf at hn
      cases hw : cfg.wantsOwned with
      | true => rw [hw] at hn; simp at hn
      | false =>
        rw [hw] at hn
        simp only [Bool.false_eq_true, if_false] at hn
        rw [allLeaves, List.getElem?_append_left hn] at he
        exact h.noOwned hw p (mem_under_collect (List.mem_of_getElem? he) p hp)
    · rw [hen] at hk
      have hn : endLeaf cfg owned halo ≤ n := by
        by_contra hc
        have : (n + 1) * cfg.stride ≤ endLeaf cfg owned halo * cfg.stride := Nat.mul_le_mul_right _ (by omega)
        rw [Nat.add_mul] at this
        omega
      have hlt : n < (allLeaves cfg owned halo).length := (List.getElem?_eq_some_iff.1 he).1
      unfold endLeaf at hn
      split at hn
      · omega
      · rename_i hc
        push Not at hc
        rw [allLeaves, List.getElem?_append_right hn] at he
        exact h.noHalo (by simpa using hc.1) (by simpa using hc.2) p (mem_under_collect (List.mem_of_getElem? he) p hp)

theorem flat_end_lt (hS : 0 < cfg.stride) : (flatOf cfg owned halo).endC < (flatCells cfg.stride (allLeaves cfg owned halo)).length := by
  have hen : (flatOf cfg owned halo).endC = endLeaf cfg owned halo * cfg.stride - 1 := by
    simp [flatOf, flatCfg, endLeaf, shapeOf, ownedLeaves]
  rw [flatCells_length hS, hen]
  have h1 := endLeaf_le (cfg := cfg) (owned := owned) (halo := halo)
  have h2 := startLeaf_lt (cfg := cfg) (owned := owned) (halo := halo)
  have h3 : 1 * cfg.stride ≤ endLeaf cfg owned halo * cfg.stride := Nat.mul_le_mul_right _ (by omega)
  have h4 : endLeaf cfg owned halo * cfg.stride ≤ (allLeaves cfg owned halo).length * cfg.stride := Nat.mul_le_mul_right _ h1
  omega

/-- The configuration of one thread. -/
def OTIterCfg.onThread (cfg : OTIterCfg P) (T t : Nat) : OTIterCfg P := { cfg with thread := t, stride := T }

theorem iterOk_onThread {T t : Nat} (h : IterOk cfg owned halo vecs) : IterOk (cfg.onThread T t) owned halo vecs :=
  ⟨h.depth, h.irr, h.noOwned, h.noHalo, h.small, h.vsmall, h.vnum⟩

theorem relOk_onThread {I : Box → Prop} {T t : Nat} (h : RelOk cfg I) : RelOk (cfg.onThread T t) I :=
  ⟨h.box, h.haloBox, h.child, h.down, h.up⟩

theorem before_of_seenBy {vs ws : List (Visit P)} (h : seenBy vs = seenBy ws) : vs.map Visit.before = ws.map Visit.before := by
  have := congrArg (List.map fun v : Bool × P × Option P => v.2.1) h
  simpa [seenBy, Function.comp_def] using this

theorem after_of_seenBy {vs ws : List (Visit P)} (h : seenBy vs = seenBy ws) : vs.filterMap Visit.after = ws.filterMap Visit.after := by
  have := congrArg (List.filterMap fun v : Bool × P × Option P => v.2.2) h
  simpa [seenBy, List.filterMap_map, Function.comp_def] using this

theorem follows_of_seenBy {body : List P → P → Option P} : ∀ {vs ws : List (Visit P)} {seen : List P}, seenBy vs = seenBy ws → Follows body seen ws →
    Follows body seen vs := by
  intro vs
  induction vs with
  | nil =>
    intro ws seen h hf
    cases ws with
    | nil => exact hf
    | cons w ws => cases h
  | cons v vs ih =>
    intro ws seen h hf
    cases ws with
    | nil => cases h
    | cons w ws =>
      simp only [seenBy, List.map_cons, List.cons.injEq, Prod.mk.injEq] at h
      obtain ⟨⟨-, h2, h3⟩, h4⟩ := h
      refine ⟨by rw [h3, h2]; exact hf.1, ?_⟩
      rw [h2]
      exact ih h4 hf.2

/-- The loops of `T` threads that only read. -/
theorem threads_partition {I : Box → Prop} (hr : RelOk cfg I) (h : IterOk cfg owned halo vecs) {T : Nat} (hT : 0 < T) :
    ∃ vs : Nat → List (Visit P),
      (∀ t, t < T → ∃ owned' halo' vecs', OTLoopEnds (cfg.onThread T t) readOnly owned halo vecs (vs t) owned' halo' vecs') ∧
      ((List.range T).flatMap fun t => (vs t).map Visit.before).Perm
        ((collectAll owned ++ collectAll halo ++ vecs.flatten).filter cfg.ful) := by
  have hx : ∀ t, ∃ vs, (t < T → (∃ owned' halo' vecs', OTLoopEnds (cfg.onThread T t) readOnly owned halo vecs vs owned' halo' vecs') ∧
      (vs.map Visit.before).Perm ((allVisits (flatOf (cfg.onThread T t) owned halo) (flatCells T (allLeaves cfg owned halo)) vecs).map fun v => v.2.2)) := by
    intro t
    by_cases ht : t < T
    · have hgood := flat_good (cfg := cfg.onThread T t) hT (iterOk_onThread h)
      obtain ⟨ws, c', v', ⟨m0, h1⟩, h2, -⟩ := loop_ends_of_no_delete hgood readOnly (Or.inr (fun _ _ => by simp [readOnly]))
      obtain ⟨s, h3, -⟩ := h1 m0 (le_refl _)
      obtain ⟨vs, o', h', h4, h5, -⟩ := loop_ends (relOk_onThread hr) hT ht (shallow_of_depth h.depth.1 h.depth.2) vecs readOnly h3
      refine ⟨vs, fun _ => ⟨⟨_, _, _, h4⟩, ?_⟩⟩
      rw [before_of_seenBy h5]
      have := h2.map (fun v : Bool × Nat × P => v.2.2)
      rw [List.map_map] at this
      exact this
    · exact ⟨[], fun hc => absurd hc ht⟩
  choose vs hv using hx
  refine ⟨vs, fun t ht => (hv t ht).1, ?_⟩
  have hgen : ∀ t, IterOk (cfg.onThread T t) owned halo vecs := fun t => iterOk_onThread h
  have hmain := allVisits_threads (fun t => flatOf (cfg.onThread T t) owned halo) T hT cfg.ful
    (flatOf (cfg.onThread T 0) owned halo).startC (flatOf (cfg.onThread T 0) owned halo).endC
    (fun t => rfl) (fun t => rfl) (fun t => rfl) (fun t => rfl) (fun t => rfl) (flatCells T (allLeaves cfg owned halo)) vecs
    (flat_end_lt (cfg := cfg.onThread T 0) hT)
    (fun k _ hk => flat_outside (cfg := cfg.onThread T 0) hT (hgen 0) k hk)
  rw [flatten_leaves] at hmain
  refine List.Perm.trans ?_ hmain
  rw [List.map_flatMap]
  exact List.Perm.flatMap_left _ (fun t ht => (hv t (List.mem_range.1 ht)).2)

/-- A loop that overwrites and deletes; no other thread runs. -/
theorem alone_modify {I : Box → Prop} (hr : RelOk cfg I) (h : IterOk cfg owned halo vecs) (hS : cfg.stride = 1) (ht : cfg.thread = 0)
    (body : List P → P → Option P) (hb : vecs ≠ [] ∨ ∀ seen p, body seen p ≠ none) :
    ∃ vs owned' halo' vecs', OTLoopEnds cfg body owned halo vecs vs owned' halo' vecs' ∧
      (vs.map Visit.before).Perm ((collectAll owned ++ collectAll halo ++ vecs.flatten).filter cfg.ful) ∧ Follows body [] vs ∧
      (collectAll owned' ++ collectAll halo' ++ vecs'.flatten ++ vs.map Visit.before).Perm
        (collectAll owned ++ collectAll halo ++ vecs.flatten ++ vs.filterMap Visit.after) := by
  have hS0 : 0 < cfg.stride := by omega
  have hgood := flat_good hS0 h
  obtain ⟨ws, us, t, m0, h1, h2, h3, h4, -, h6⟩ := loop_always_ends (flatOf cfg owned halo) body _ [] _ _ rfl hgood
  obtain ⟨vs, o', h', g1, g2, g3⟩ := loop_ends hr hS0 (by omega) (shallow_of_depth h.depth.1 h.depth.2) vecs body (h1 m0 (le_refl _))
  have hus : us = [] := by
    rcases h3 with h3 | ⟨h3, v, hv, hn⟩
    · exact h3
    · rcases hb with hb | hb
      · exact absurd h3 hb
      · exfalso
        have hmem : v ∈ ws ++ us := List.mem_append_left _ (List.mem_of_getLast? hv)
        have : ∀ (l : List (Visit P)) seen, Follows body seen l → ∀ v ∈ l, v.after ≠ none := by
          intro l
          induction l with
          | nil => intro seen _ v hv; cases hv
          | cons a l ih =>
            intro seen hf v hv
            rcases List.mem_cons.1 hv with rfl | hv
            · rw [hf.1]; exact hb _ _
            · exact ih _ hf.2 v hv
        exact this _ _ h4 v hmem hn
  subst hus
  rw [List.append_nil] at g2 h4 h6
  refine ⟨vs, o', h', t.vecs, g1, ?_, follows_of_seenBy g2 h4, ?_⟩
  · rw [before_of_seenBy g2]
    have h5 := h2.map (fun v : Bool × Nat × P => v.2.2)
    rw [List.map_map] at h5
    refine List.Perm.trans (show _root_.List.Perm (ws.map Visit.before) _ from h5) ?_
    have hmain := allVisits_threads (fun t => flatOf (cfg.onThread 1 t) owned halo) 1 Nat.one_pos cfg.ful
      (flatOf (cfg.onThread 1 0) owned halo).startC (flatOf (cfg.onThread 1 0) owned halo).endC
      (fun t => rfl) (fun t => rfl) (fun t => rfl) (fun t => rfl) (fun t => rfl) (flatCells 1 (allLeaves cfg owned halo)) vecs
      (flat_end_lt (cfg := cfg.onThread 1 0) Nat.one_pos)
      (fun k _ hk => flat_outside (cfg := cfg.onThread 1 0) Nat.one_pos (iterOk_onThread h) k hk)
    rw [flatten_leaves, List.range_one, List.flatMap_singleton] at hmain
    have e : cfg.onThread 1 0 = cfg := by
      unfold OTIterCfg.onThread
      rw [← hS, ← ht]
    rw [e] at hmain
    rw [hS]
    exact hmain
  · rw [before_of_seenBy g2, after_of_seenBy g2]
    rw [g3, flatten_leaves, flatten_leaves] at h6
    exact h6

end
end Verif.Octree
