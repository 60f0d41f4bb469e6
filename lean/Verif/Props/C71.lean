import Verif.Props.C70
/-!
# C71 — Deleting a particle from the octree removes that particle and no other

By a reference (`deleteParticle(particle)`) and by an iterator.
-/
namespace Verif
open Spec Octree

section
variable {P : Type} {pos : P → V3 Rat} {il : Rat}

theorem child_unique {b : Box} {x : V3 Rat} {o o' : Vertex} (h : InBox x (childBox b o).lo (childBox b o).hi)
    (h' : InBox x (childBox b o').lo (childBox b o').hi) : o = o' := by
  have key : ∀ d, bit d o = bit d o' := by
    intro d
    have h1 := inBox_iff.1 h d
    have h2 := inBox_iff.1 h' d
    rw [childBox_hi, childBox_lo] at h1 h2
    have hb : ∀ o, bit d o = 0 ∨ bit d o = 1 := by intro o; cases d <;> cases o <;> decide
    rcases hb o with e1 | e1 <;> rcases hb o' with e2 | e2 <;> rw [e1, e2] <;> rw [e1] at h1 <;> rw [e2] at h2 <;> push_cast at h1 h2 <;>
      exfalso <;> linarith [h1.1, h1.2, h2.1, h2.2]
  have k1 := key .x; have k2 := key .y; have k3 := key .z
  revert k1 k2 k3
  cases o <;> cases o' <;> decide

/-- A particle that is still in the box of its leaf is found there. -/
theorem findLeaf_eq {x : V3 Rat} {r : List Vertex} {t : OTree P} {b : Box} {ps : List P} (h : nodeAt t r.reverse = some (.leaf ps))
    (hw : ∀ d, 0 ≤ b.width d) (hx : InBox x (boxAt b r.reverse).lo (boxAt b r.reverse).hi) : findLeaf x t b = some r := by
  induction r generalizing t b with
  | nil =>
    simp only [List.reverse_nil, nodeAt, Option.some.injEq] at h
    subst h
    rfl
  | cons o r ih =>
    obtain ⟨c, rfl, hc⟩ := nodeAt_rootFirst t o r h
    rw [List.reverse_cons, boxAt_append] at hx
    simp only [boxAt] at hx
    have hin : InBox x (childBox b o).lo (childBox b o).hi := by
      rw [inBox_iff] at hx ⊢
      intro d
      have hs := boxAt_sub (childBox_pos hw o) r.reverse d
      exact ⟨le_trans hs.1 (hx d).1, lt_of_lt_of_le (hx d).2 hs.2⟩
    have hfind : vertices.find? (fun o => inBoxB x (childBox b o).lo (childBox b o).hi) = some o := by
      cases hf : vertices.find? fun o => inBoxB x (childBox b o).lo (childBox b o).hi with
      | none =>
        rw [List.find?_eq_none] at hf
        exact absurd (inBoxB_spec.2 hin) (hf o (by cases o <;> decide))
      | some o' =>
        have ho := List.find?_some hf
        rw [child_unique hin (inBoxB_spec.1 ho)]
    rw [findLeaf, hfind]
    simp only
    rw [ih hc (childBox_pos hw o) hx]
    rfl

theorem modifyAt_modifyAt {g g' : List P → List P} {r : List Vertex} {t : OTree P} : modifyAt g r (modifyAt g' r t) = modifyAt (fun l => g (g' l)) r t := by
  induction r generalizing t with
  | nil => cases t <;> rfl
  | cons o r ih =>
    cases t with
    | leaf ps => rfl
    | inner c => simp only [modifyAt, Function.update_self, Function.update_idem, ih]

theorem modifyAt_congr {g g' : List P → List P} {r : List Vertex} {t : OTree P} {ps : List P} (h : nodeAt t r.reverse = some (.leaf ps))
    (e : g ps = g' ps) : modifyAt g r t = modifyAt g' r t := by
  induction r generalizing t with
  | nil =>
    simp only [List.reverse_nil, nodeAt, Option.some.injEq] at h
    subst h
    simp [modifyAt, e]
  | cons o r ih =>
    obtain ⟨c, rfl, hc⟩ := nodeAt_rootFirst t o r h
    simp only [modifyAt, ih hc]

/-- Deletion by reference, if the particle is still in the box of its leaf: that particle is removed, all others stay, sorted as before.
Missing for the full property: particles that left the box of their leaf, where it fails (`C71_violated_empty_leaf`, `C71_violated_misplaced`). -/
theorem C71_delete_reference_partial [DecidableEq P] {t : OTree P} {b : Box} {q : Path} {i : Nat} {p : P} (hw : ∀ d, 0 ≤ b.width d)
    (hp : (leafAt t q).bind (·[i]?) = some p) (hin : InBox (pos p) (boxAt b q).lo (boxAt b q).hi) :
    ∃ t', deleteRef pos t b q i = .ok t' ∧ (collectAll t').Perm ((collectAll t).erase p) ∧ p ∈ collectAll t ∧
      (Good il pos t b → Good il pos t' b) := by
  obtain ⟨ps, hps, hi⟩ := Option.bind_eq_some_iff.1 hp
  have hq := leafAt_eq.1 hps
  have hq' : nodeAt t q.reverse.reverse = some (.leaf ps) := by rwa [List.reverse_reverse]
  have hf : findLeaf (pos p) t b = some q.reverse := findLeaf_eq hq' hw (by rwa [List.reverse_reverse])
  have hne : ps ≠ [] := by rintro rfl; simp at hi
  have hl : ps.getLast? = some (ps.getLast hne) := List.getLast?_eq_some_getLast hne
  obtain ⟨hlt, -⟩ := List.getElem?_eq_some_iff.1 hi
  have hres : deleteRef pos t b q i = .ok (deleteAt t q i) := by
    unfold deleteRef
    rw [hp]
    simp only [hf, List.reverse_reverse, hps, Option.bind_some, hl]
    rw [modifyAt_modifyAt]
    unfold deleteAt
    congr 1
    refine modifyAt_congr hq' ?_
    unfold swapDelete
    rw [hl]
    simp only
    rw [if_pos hlt]
  obtain ⟨d1, d2, d3⟩ := deleteAt_spec hp
  exact ⟨_, hres, d1, d2, d3 il pos b⟩

/-- Deletion by an iterator: that particle is removed, all others stay, sorted as before, wherever the particle is by now. -/
theorem C71_delete_at_iterator [DecidableEq P] {t : OTree P} {b : Box} {q : Path} {i : Nat} {p : P} (hp : (leafAt t q).bind (·[i]?) = some p) :
    (collectAll (deleteAt t q i)).Perm ((collectAll t).erase p) ∧ p ∈ collectAll t ∧ (Good il pos t b → Good il pos (deleteAt t q i) b) := by
  obtain ⟨d1, d2, d3⟩ := deleteAt_spec hp
  exact ⟨d1, d2, d3 il pos b⟩

end

/-! ### Violations: box `[0,10)³`, interaction length 1; seventeen particles, all but the last one in the octant next to the origin. -/

private def vCfg : OTCfg := ⟨⟨⟨0, 0, 0⟩, ⟨10, 10, 10⟩⟩, 1⟩
private def vAt (i : Nat) : Particle := ⟨i, ⟨(i : Rat) / 5, 1, 1⟩, .owned⟩
private def vActs : List OTAction := (List.range 16).map (fun i => .add (vAt i)) ++ [.add ⟨16, ⟨6, 1, 1⟩, .owned⟩]

/-- `size()` counts a particle that was deleted through an iterator. -/
theorem C71_violated_size : ∃ (c : OTCfg) (acts : List OTAction), otAllowedRun c OTState.empty OTContents.empty acts ∧
    (OTState.empty.run c acts).2.size ≠
      (collectAll (OTState.empty.run c acts).2.owned).length + (collectAll (OTState.empty.run c acts).2.halo).length := by
  refine ⟨vCfg, [.add (vAt 1), .deleteOwnedAt [] 0], ?_, by decide +kernel⟩
  simp only [otAllowedRun, otAllowed, and_true]
  decide +kernel

/-- Deleting (by reference) a particle that moved by 1/100 into an empty leaf of the tree: `back()` of an empty vector. -/
theorem C71_violated_empty_leaf : ∃ (c : OTCfg) (acts : List OTAction) (q : Path) (i : Nat) (p : Particle),
    otAllowedRun c OTState.empty OTContents.empty acts ∧
    (leafAt (OTState.empty.run c acts).2.owned q).bind (·[i]?) = some p ∧ InBox p.pos c.box.lo c.box.hi ∧
    deleteRef Particle.pos (OTState.empty.run c acts).2.owned c.box q i = .ub := by
  refine ⟨vCfg, (List.range 16).map (fun i => .add (vAt i)) ++ [.add ⟨16, ⟨1, 4999/1000, 1⟩, .owned⟩,
    .change fun p => if p.id = 16 then ⟨16, ⟨1, 5009/1000, 1⟩, .owned⟩ else p], [.LUB, .LDB], 0, ⟨16, ⟨1, 5009/1000, 1⟩, .owned⟩, ?_,
    by decide +kernel, by decide +kernel, ?_⟩
  · simp only [List.range_succ, List.range_zero, List.nil_append, List.map_cons, List.map_append, List.map_nil, List.cons_append, otAllowedRun, otAllowed,
      and_true, true_and]
    decide +kernel
  · have h : (match deleteRef Particle.pos (OTState.empty.run vCfg ((List.range 16).map (fun i => OTAction.add (vAt i)) ++
        [.add ⟨16, ⟨1, 4999/1000, 1⟩, .owned⟩, .change fun p => if p.id = 16 then ⟨16, ⟨1, 5009/1000, 1⟩, .owned⟩ else p])).2.owned vCfg.box
        [.LUB, .LDB] 0 with | .ub => true | _ => false) = true := by decide +kernel
    revert h
    generalize deleteRef _ _ _ _ _ = r
    cases r <;> intro h <;> first | rfl | cases h

private def wFill : List Particle := (List.range 16).map fun i => ⟨10 + i, ⟨99/10, 49/10, (i : Rat) / 10⟩, .owned⟩
private def wActs : List OTAction := (([⟨0, ⟨499/100, 1, 1⟩, .owned⟩, ⟨1, ⟨37/5, 1, 1⟩, .owned⟩, ⟨2, ⟨38/5, 1, 1⟩, .owned⟩] : List Particle) ++ wFill).map .add ++
  [.change fun p => if p.id = 0 then ⟨0, ⟨501/100, 1, 1⟩, .owned⟩ else p]
private def wTree : OTree Particle := (OTState.empty.run vCfg wActs).2.owned
private def wF : CellFunctorCfg Particle := ⟨fun p => decide (p.own = .halo), true, true, false, 0, 3/4, ⟨1, 1, 1⟩, sortByProjection Particle.pos⟩

/-- Deleting (by reference) a particle that moved by 1/50 into another leaf: the last particle of that leaf is put into the wrong leaf, and two particles
that never moved, at distance 1/5 (cutoff 3/4, skin 1/4), do not interact any more. -/
theorem C71_violated_misplaced : ∃ (c : OTCfg) (acts : List OTAction) (q : Path) (i : Nat) (p : Particle) (t : OTree Particle) (f : CellFunctorCfg Particle)
    (x y : Particle), otAllowedRun c OTState.empty OTContents.empty acts ∧ c.il = 3/4 + 1/4 ∧
    (leafAt (OTState.empty.run c acts).2.owned q).bind (·[i]?) = some p ∧ InBox p.pos c.box.lo c.box.hi ∧
    deleteRef Particle.pos (OTState.empty.run c acts).2.owned c.box q i = .ok t ∧
    OTFunctor (3/4) Particle.pos Particle.own true f ∧ x ∈ collectAll t ∧ y ∈ collectAll t ∧ x ≠ y ∧ x.own = .owned ∧ y.own = .owned ∧
    distSq x.pos y.pos < 3/4 * (3/4) ∧
    timesReceived (otInteractions Particle.pos Particle.own (3/4) (1/4) f true id c.box t (.leaf []) [] []) x y = 0 := by
  refine ⟨vCfg, wActs, [.LDB], 0, ⟨0, ⟨501/100, 1, 1⟩, .owned⟩,
    modifyAt List.dropLast [.RDB, .LDB] (modifyAt (fun ps => ps.set 0 ⟨1, ⟨37/5, 1, 1⟩, .owned⟩) [.LDB] wTree), wF,
    ⟨2, ⟨38/5, 1, 1⟩, .owned⟩, ⟨1, ⟨37/5, 1, 1⟩, .owned⟩, ?_, by decide +kernel, by decide +kernel, by decide +kernel, ?_,
    ⟨rfl, rfl, rfl, sortByProjection_sorted _, fun _ => rfl⟩, by decide +kernel, by decide +kernel, by decide +kernel, rfl, rfl, by decide +kernel,
    by decide +kernel⟩
  · simp only [wActs, wFill, List.range_succ, List.range_zero, List.nil_append, List.map_cons, List.map_append, List.map_nil, List.cons_append, otAllowedRun,
      otAllowed, and_true, true_and]
    decide +kernel
  · have e1 : (leafAt (OTState.empty.run vCfg wActs).2.owned [.LDB]).bind (·[0]?) = some ⟨0, ⟨501/100, 1, 1⟩, .owned⟩ := by decide +kernel
    have e2 : findLeaf ⟨501/100, 1, 1⟩ (OTState.empty.run vCfg wActs).2.owned vCfg.box = some [.RDB, .LDB] := by decide +kernel
    have e3 : (leafAt (OTState.empty.run vCfg wActs).2.owned [.LDB, .RDB]).bind List.getLast? = some ⟨1, ⟨37/5, 1, 1⟩, .owned⟩ := by decide +kernel
    unfold deleteRef
    rw [e1]
    simp only [e2, List.reverse_cons, List.reverse_nil, List.nil_append, List.cons_append, e3]
    rfl

/-- Non-vacuity: a divided tree, a particle that is in its leaf. -/
example : ∃ t', deleteRef Particle.pos (OTState.empty.run vCfg vActs).2.owned vCfg.box [.RDB] 0 = .ok t' ∧
    (collectAll t').Perm ((collectAll (OTState.empty.run vCfg vActs).2.owned).erase ⟨16, ⟨6, 1, 1⟩, .owned⟩) := by
  obtain ⟨t', h1, h2, -, -⟩ := C71_delete_reference_partial (il := 1) (pos := Particle.pos) (t := (OTState.empty.run vCfg vActs).2.owned) (b := vCfg.box)
    (q := [.RDB]) (i := 0) (p := ⟨16, ⟨6, 1, 1⟩, .owned⟩) (by intro d; cases d <;> decide +kernel) (by decide +kernel) (by decide +kernel)
  exact ⟨t', h1, h2⟩

end Verif
