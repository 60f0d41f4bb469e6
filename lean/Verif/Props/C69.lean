import Verif.Lemmas.OctreeStorage
/-!
# C69 — The octree stores exactly the particles given to it, and hands back exactly those that left the box

For every history of insertions, changes through references, `updateContainer`, deletions.
-/
namespace Verif
open Spec Octree

/-- The particle to which a deletion refers. -/
def otPointee (s : OTState) : OTAction → Option Particle
  | .deleteOwnedAt q i => (leafAt s.owned q).bind (·[i]?)
  | .deleteHaloAt q i => (leafAt s.halo q).bind (·[i]?)
  | _ => none

/-- What the user may do: insert particles that are in the box (halo: in the box grown by the interaction length) as long as no particle was moved
since the particles were sorted in; delete particles that exist. -/
def otAllowed (c : OTCfg) (s : OTState) (k : OTContents) : OTAction → Prop
  | .add p => InBox p.pos c.box.lo c.box.hi ∧ k.ownedMoved = false
  | .addHalo p => InBox p.pos c.haloBox.lo c.haloBox.hi ∧ k.haloMoved = false
  | .change _ | .update | .deleteHalo => True
  | .deleteOwnedAt q i => otPointee s (.deleteOwnedAt q i) ≠ none
  | .deleteHaloAt q i => otPointee s (.deleteHaloAt q i) ≠ none

/-- All actions of a history are allowed. -/
def otAllowedRun (c : OTCfg) : OTState → OTContents → List OTAction → Prop
  | _, _, [] => True
  | s, k, a :: as => otAllowed c s k a ∧ otAllowedRun c (s.step c a).2 (k.step c.box.lo c.box.hi (otPointee s a) a).2 as

/-- The expected results of a history. -/
def otExpected (c : OTCfg) : OTState → OTContents → List OTAction → List (List Particle) × OTContents
  | _, k, [] => ([], k)
  | s, k, a :: as =>
    let r := k.step c.box.lo c.box.hi (otPointee s a) a
    let r' := otExpected c (s.step c a).2 r.2 as
    (r.1 :: r'.1, r'.2)

/-- The state holds the contents. -/
structure OTHolds (c : OTCfg) (s : OTState) (k : OTContents) : Prop where
  owned : (collectAll s.owned).Perm k.owned
  halo : (collectAll s.halo).Perm k.halo
  ownedSorted : k.ownedMoved = false → Good c.il Particle.pos s.owned c.box
  haloSorted : k.haloMoved = false → Good c.il Particle.pos s.halo c.haloBox

theorem otHolds_empty (c : OTCfg) : OTHolds c OTState.empty OTContents.empty :=
  ⟨List.Perm.refl _, List.Perm.refl _, (fun _ p hp => by cases hp), (fun _ p hp => by cases hp)⟩

theorem otHolds_step {c : OTCfg} {s : OTState} {k : OTContents} (h : OTHolds c s k) {a : OTAction} (ha : otAllowed c s k a) :
    (s.step c a).1.Perm (k.step c.box.lo c.box.hi (otPointee s a) a).1 ∧
    OTHolds c (s.step c a).2 (k.step c.box.lo c.box.hi (otPointee s a) a).2 := by
  cases a with
  | add p =>
    obtain ⟨g1, g2⟩ := insert_spec (thr := treeSplitThreshold) (h.ownedSorted ha.2) ha.1
    exact ⟨List.Perm.refl _, g2.trans (h.owned.cons p), h.halo, fun _ => g1, h.haloSorted⟩
  | addHalo p =>
    obtain ⟨g1, g2⟩ := insert_spec (thr := treeSplitThreshold) (h.haloSorted ha.2) ha.1
    exact ⟨List.Perm.refl _, h.owned, g2.trans (h.halo.cons p), h.ownedSorted, fun _ => g1⟩
  | change g =>
    refine ⟨List.Perm.refl _, ?_, ?_, (fun hx => by cases hx), (fun hx => by cases hx)⟩
    · show (collectAll (s.owned.map g)).Perm _
      rw [collectAll_map]; exact h.owned.map g
    · show (collectAll (s.halo.map g)).Perm _
      rw [collectAll_map]; exact h.halo.map g
  | update =>
    have e1 : (s.step c .update).1 = ((collectAll s.owned).filter fun p => p.own ≠ .dummy).filter fun p => !inBoxB p.pos c.box.lo c.box.hi := rfl
    have hin : ∀ p : Particle, inBoxB p.pos c.box.lo c.box.hi = decide (InBox p.pos c.box.lo c.box.hi) := by
      intro p
      rw [Bool.eq_iff_iff, inBoxB_spec, decide_eq_true_eq]
    obtain ⟨g1, g2, g3, -, -⟩ := addAll_spec c (((collectAll s.owned).filter fun p => p.own ≠ .dummy).filter fun p => inBoxB p.pos c.box.lo c.box.hi)
      OTState.empty (fun p hp => inBoxB_spec.1 (List.mem_filter.1 hp).2) (fun p hp => by cases hp)
    refine ⟨?_, ?_, ?_, fun _ => g1, ?_⟩
    · rw [e1, List.filter_filter]
      show _root_.List.Perm _ (k.owned.filter _)
      have : (fun p : Particle => (!inBoxB p.pos c.box.lo c.box.hi && decide (p.own ≠ .dummy))) =
          fun p => decide (p.own ≠ .dummy ∧ ¬ InBox p.pos c.box.lo c.box.hi) := by
        funext p
        rw [hin p, Bool.eq_iff_iff]
        simp only [Bool.and_eq_true, Bool.not_eq_true', decide_eq_false_iff_not, decide_eq_true_eq]
        tauto
      rw [this]
      exact h.owned.filter _
    · refine g2.trans ?_
      rw [List.filter_filter]
      have hnil : collectAll OTState.empty.owned = [] := rfl
      rw [hnil, List.append_nil]
      show _root_.List.Perm _ (k.owned.filter _)
      have : (fun p : Particle => (inBoxB p.pos c.box.lo c.box.hi && decide (p.own ≠ .dummy))) =
          fun p => decide (p.own ≠ .dummy ∧ InBox p.pos c.box.lo c.box.hi) := by
        funext p
        rw [hin p, Bool.eq_iff_iff]
        simp only [Bool.and_eq_true, decide_eq_true_eq]
        tauto
      rw [this]
      exact h.owned.filter _
    · show (collectAll (s.step c .update).2.halo).Perm []
      have : (s.step c .update).2.halo = .leaf [] := g3
      rw [this]
      exact List.Perm.refl _
    · intro _
      have : (s.step c .update).2.halo = .leaf [] := g3
      rw [this]
      exact fun p hp => by cases hp
  | deleteHalo => exact ⟨List.Perm.refl _, h.owned, List.Perm.refl _, h.ownedSorted, fun _ p hp => by cases hp⟩
  | deleteOwnedAt q i =>
    obtain ⟨p, hp⟩ := Option.ne_none_iff_exists'.1 ha
    obtain ⟨d1, -, d3⟩ := deleteAt_spec hp
    refine ⟨List.Perm.refl _, ?_, h.halo, fun hm => d3 _ _ _ (h.ownedSorted hm), h.haloSorted⟩
    show (collectAll (deleteAt s.owned q i)).Perm ((otPointee s (.deleteOwnedAt q i)).elim k.owned k.owned.erase)
    have hp' : otPointee s (.deleteOwnedAt q i) = some p := hp
    rw [hp']
    exact d1.trans (h.owned.erase p)
  | deleteHaloAt q i =>
    obtain ⟨p, hp⟩ := Option.ne_none_iff_exists'.1 ha
    obtain ⟨d1, -, d3⟩ := deleteAt_spec hp
    refine ⟨List.Perm.refl _, h.owned, ?_, h.ownedSorted, fun hm => d3 _ _ _ (h.haloSorted hm)⟩
    show (collectAll (deleteAt s.halo q i)).Perm ((otPointee s (.deleteHaloAt q i)).elim k.halo k.halo.erase)
    have hp' : otPointee s (.deleteHaloAt q i) = some p := hp
    rw [hp']
    exact d1.trans (h.halo.erase p)

theorem otHolds_run {c : OTCfg} (acts : List OTAction) (s : OTState) (k : OTContents) (h : OTHolds c s k) (ha : otAllowedRun c s k acts) :
    List.Forall₂ List.Perm (s.run c acts).1 (otExpected c s k acts).1 ∧ OTHolds c (s.run c acts).2 (otExpected c s k acts).2 := by
  induction acts generalizing s k with
  | nil => exact ⟨.nil, h⟩
  | cons a as ih =>
    obtain ⟨h1, h2⟩ := otHolds_step h ha.1
    obtain ⟨h3, h4⟩ := ih _ _ h2 ha.2
    exact ⟨.cons h1 h3, h4⟩

/-- After every allowed history the container holds exactly what it should, and it handed back exactly what it should, in some order.
Missing for the full property: insertions while particles have moved since they were sorted in, where it fails
(`C69_violated_insert_after_move`), and halo particles farther away than the interaction length (`C69_violated_far_halo`). -/
theorem C69_holds_what_was_given_partial (c : OTCfg) (acts : List OTAction) (ha : otAllowedRun c OTState.empty OTContents.empty acts) :
    List.Forall₂ List.Perm (OTState.empty.run c acts).1 (otExpected c OTState.empty OTContents.empty acts).1 ∧
    (collectAll (OTState.empty.run c acts).2.owned).Perm (otExpected c OTState.empty OTContents.empty acts).2.owned ∧
    (collectAll (OTState.empty.run c acts).2.halo).Perm (otExpected c OTState.empty OTContents.empty acts).2.halo := by
  obtain ⟨h1, h2⟩ := otHolds_run acts _ _ (otHolds_empty c) ha
  exact ⟨h1, h2.owned, h2.halo⟩

/-- As long as nothing moved, every particle is in a leaf whose box contains it, and only boxes of at least twice the interaction length are
divided (what `C70` needs). -/
theorem C69_sorted (c : OTCfg) (acts : List OTAction) (ha : otAllowedRun c OTState.empty OTContents.empty acts) :
    ((otExpected c OTState.empty OTContents.empty acts).2.ownedMoved = false →
      Good c.il Particle.pos (OTState.empty.run c acts).2.owned c.box) ∧
    ((otExpected c OTState.empty OTContents.empty acts).2.haloMoved = false →
      Good c.il Particle.pos (OTState.empty.run c acts).2.halo c.haloBox) := by
  obtain ⟨-, h2⟩ := otHolds_run acts _ _ (otHolds_empty c) ha
  exact ⟨h2.ownedSorted, h2.haloSorted⟩

/-! ### `size()` -/

/-- No deletion through an iterator. -/
def otNoDeleteAt : OTAction → Bool
  | .deleteOwnedAt _ _ | .deleteHaloAt _ _ => false
  | _ => true

theorem otSize_run {c : OTCfg} (acts : List OTAction) (s : OTState) (k : OTContents) (h : OTHolds c s k) (ha : otAllowedRun c s k acts)
    (hn : ∀ a ∈ acts, otNoDeleteAt a = true) (hs : s.nOwned = k.owned.length ∧ s.nHalo = k.halo.length) :
    (s.run c acts).2.nOwned = (otExpected c s k acts).2.owned.length ∧ (s.run c acts).2.nHalo = (otExpected c s k acts).2.halo.length := by
  induction acts generalizing s k with
  | nil => exact hs
  | cons a as ih =>
    obtain ⟨-, h2⟩ := otHolds_step h ha.1
    refine ih _ _ h2 ha.2 (fun b hb => hn b (by simp [hb])) ?_
    have hna := hn a (by simp)
    cases a with
    | add p => exact ⟨by show s.nOwned + 1 = (p :: k.owned).length; rw [hs.1, List.length_cons], hs.2⟩
    | addHalo p => exact ⟨hs.1, by show s.nHalo + 1 = (p :: k.halo).length; rw [hs.2, List.length_cons]⟩
    | change g =>
      exact ⟨by show s.nOwned = (k.owned.map g).length; rw [hs.1, List.length_map], by show s.nHalo = (k.halo.map g).length; rw [hs.2, List.length_map]⟩
    | update =>
      obtain ⟨-, g2, -, g4, g5⟩ := addAll_spec c (((collectAll s.owned).filter fun p => p.own ≠ .dummy).filter fun p => inBoxB p.pos c.box.lo c.box.hi)
        OTState.empty (fun p hp => inBoxB_spec.1 (List.mem_filter.1 hp).2) (fun p hp => by cases hp)
      have e1 : (s.step c .update).2.nOwned = 0 + _ := g5
      have e2 : (s.step c .update).2.nHalo = 0 := g4
      have e3 := h2.owned.length_eq
      have e4 : (collectAll (s.step c .update).2.owned).length = _ := g2.length_eq
      rw [e3] at e4
      have hnil : collectAll OTState.empty.owned = [] := rfl
      rw [hnil, List.append_nil] at e4
      exact ⟨by rw [e1, Nat.zero_add, e4], e2⟩
    | deleteHalo => exact ⟨hs.1, rfl⟩
    | deleteOwnedAt q i => cases hna
    | deleteHaloAt q i => cases hna

/-- `size()` is the number of stored particles, as long as nothing is deleted through an iterator (see `C71`). -/
theorem C69_size_partial (c : OTCfg) (acts : List OTAction) (ha : otAllowedRun c OTState.empty OTContents.empty acts)
    (hn : ∀ a ∈ acts, otNoDeleteAt a = true) :
    (OTState.empty.run c acts).2.size =
      (otExpected c OTState.empty OTContents.empty acts).2.owned.length + (otExpected c OTState.empty OTContents.empty acts).2.halo.length := by
  obtain ⟨h1, h2⟩ := otSize_run acts _ _ (otHolds_empty c) ha hn ⟨rfl, rfl⟩
  unfold OTState.size
  rw [h1, h2]

/-! ### Violations and examples: box `[0,10)³`, interaction length 1. -/

private def xCfg : OTCfg := ⟨⟨⟨0, 0, 0⟩, ⟨10, 10, 10⟩⟩, 1⟩
private def xAt (i : Nat) : Particle := ⟨i, ⟨(i : Rat) / 2, 1, 1⟩, .owned⟩
private def xHalo (i : Nat) : Particle := ⟨i, ⟨(i : Rat) / 2, 1, -1/2⟩, .halo⟩
private def xOut (p : Particle) : Particle := if p.id = 1 then ⟨1, ⟨20, 1, 1⟩, .owned⟩ else p
private def xAdded : OTAction → Option Particle
  | .add p => some p
  | _ => none
private def xLost : List OTAction := (List.range 16).map (fun i => .add (xAt i)) ++ [.change xOut, .add (xAt 16), .update]
private def xFar : List OTAction := .addHalo ⟨99, ⟨-50, 1, 1⟩, .halo⟩ :: (List.range 16).map (fun i => .addHalo (xHalo i))

/-- A particle that leaves the box after it was sorted in is lost, without being handed back, if an insertion makes its leaf split before
`updateContainer`. (Every insertion is inside the box.) -/
theorem C69_violated_insert_after_move : ∃ (c : OTCfg) (acts : List OTAction) (p : Particle),
    (∀ a ∈ acts, ∀ q, a = .add q → InBox q.pos c.box.lo c.box.hi) ∧
    p ∈ (otExpected c OTState.empty OTContents.empty acts).1.flatten ∧
    (OTState.empty.run c acts).1.flatten = [] ∧
    ∀ q ∈ collectAll (OTState.empty.run c acts).2.owned ++ collectAll (OTState.empty.run c acts).2.halo, q.id ≠ p.id := by
  refine ⟨xCfg, xLost, ⟨1, ⟨20, 1, 1⟩, .owned⟩, ?_, by decide +kernel, by decide +kernel, by decide +kernel⟩
  intro a ha q e
  subst e
  have h : ∀ a ∈ xLost, (xAdded a).all (fun q => decide (InBox q.pos xCfg.box.lo xCfg.box.hi)) = true := by decide +kernel
  simpa [xAdded] using h _ ha

/-- A halo particle farther from the box than the interaction length disappears when the root of the halo tree is divided; `size()` still counts it. -/
theorem C69_violated_far_halo : ∃ (c : OTCfg) (acts : List OTAction) (p : Particle), OTAction.addHalo p ∈ acts ∧
    (∀ a ∈ acts, ∃ q, a = .addHalo q ∧ ¬ InBox q.pos c.box.lo c.box.hi) ∧
    p ∉ collectAll (OTState.empty.run c acts).2.halo ∧
    (collectAll (OTState.empty.run c acts).2.halo).length + 1 = (OTState.empty.run c acts).2.size := by
  refine ⟨xCfg, xFar, ⟨99, ⟨-50, 1, 1⟩, .halo⟩, List.mem_cons_self .., ?_, by decide +kernel, by decide +kernel⟩
  intro a ha
  rcases List.mem_cons.1 ha with rfl | ha
  · exact ⟨_, rfl, by decide +kernel⟩
  · obtain ⟨i, hi, rfl⟩ := List.mem_map.1 ha
    refine ⟨_, rfl, ?_⟩
    have : ∀ i ∈ List.range 16, ¬ InBox (xHalo i).pos xCfg.box.lo xCfg.box.hi := by decide +kernel
    exact this i hi

/-- Non-vacuity: seventeen particles (the root is divided), one moves out and is handed back, one is deleted. -/
private def xOk : List OTAction := (List.range 17).map (fun i => .add (xAt i)) ++ [.addHalo (xHalo 3), .change xOut, .update, .deleteOwnedAt [] 0]

example : (OTState.empty.run xCfg xOk).1.flatten = [⟨1, ⟨20, 1, 1⟩, .owned⟩] ∧
    (collectAll (OTState.empty.run xCfg xOk).2.owned).length = 15 ∧
    (otExpected xCfg OTState.empty OTContents.empty xOk).2.owned.length = 15 ∧ otAllowedRun xCfg OTState.empty OTContents.empty xOk := by
  refine ⟨by decide +kernel, by decide +kernel, by decide +kernel, ?_⟩
  simp only [xOk, List.range_succ, List.range_zero, List.nil_append, List.map_cons, List.map_append, List.map_nil, List.cons_append, otAllowedRun, otAllowed, and_true, true_and]
  decide +kernel

end Verif
