import Verif.Lemmas.OctreeInteract
import Verif.Props.C69
/-!
# C70 — The octree lets every owned particle feel every other particle within the cutoff exactly once

For both octree traversals, with and without Newton 3, whatever the shape of the trees. `home p` is the position by which `p` was sorted into its
leaf; since then it moved by at most half the skin. `arrange` is the unspecified order of the `std::set` of leaves.
-/
namespace Verif
open Spec Octree

section
variable {P : Type} [DecidableEq P] {b : Box} {cutoff skin : Rat} {pos home : P → V3 Rat} {own : P → Ownership} {arrange : List Path → List Path}
  {owned halo : OTree P} {pb hb : List (List P)} {f : CellFunctorCfg P} {c18 : Bool}

/-- `computeInteractions` with the octree (`c18`: the traversal ot_c18, otherwise ot_c01) and the insertion buffers `pb` (owned) and `hb` (halo). -/
def otInteractions (pos : P → V3 Rat) (own : P → Ownership) (cutoff skin : Rat) (f : CellFunctorCfg P) (c18 : Bool) (arrange : List Path → List Path)
    (b : Box) (owned halo : OTree P) (pb hb : List (List P)) : List (PairCall P) :=
  otCalls f c18 arrange (cutoff + skin) owned halo b (b.grow (cutoff + skin)) ++
  remainder2B pos own f.newton3 cutoff (collectAll owned ++ collectAll halo) pb hb

theorem grow_width {b : Box} {il : Rat} (hb : ∀ d, 0 ≤ b.width d) (hil : 0 ≤ il) (d : Ax) : 0 ≤ (b.grow il).width d := by
  have h := hb d
  unfold Box.width at *
  have g1 : comp (b.grow il).lo d = comp b.lo d - il := by cases d <;> rfl
  have g2 : comp (b.grow il).hi d = comp b.hi d + il := by cases d <;> rfl
  rw [g1, g2]
  linarith

/-- Every neighbour exactly once. (`hg`, `hgh`: the trees are as `C69_sorted` says.) -/
theorem C70_every_neighbour_once (hcut : 0 ≤ cutoff) (hskin : 0 ≤ skin) (hil : 0 < cutoff + skin) (hbox : ∀ d : Ax, comp b.lo d < comp b.hi d)
    (ha : ∀ l, (arrange l).Perm l) (hf : OTFunctor cutoff pos own c18 f)
    (hg : Good (cutoff + skin) home owned b) (hgh : Good (cutoff + skin) home halo (b.grow (cutoff + skin)))
    (hm : ∀ p ∈ collectAll owned ++ collectAll halo, 4 * distSq (pos p) (home p) ≤ skin * skin)
    (hh : ∀ p ∈ collectAll halo, own p ≠ .owned)
    (hin : RemInput (collectAll owned ++ collectAll halo) pb hb) (hhb : ∀ x ∈ hb.flatten, own x = .halo) (x y : P)
    (hx : x ∈ (collectAll owned ++ collectAll halo) ++ (pb.flatten ++ hb.flatten))
    (hy : y ∈ (collectAll owned ++ collectAll halo) ++ (pb.flatten ++ hb.flatten)) (hxy : x ≠ y)
    (hxo : own x = .owned) (hyo : own y ≠ .dummy) (hd : distSq (pos x) (pos y) < cutoff * cutoff) :
    timesReceived (otInteractions pos own cutoff skin f c18 arrange b owned halo pb hb) x y = 1 := by
  have hw : ∀ d, 0 ≤ b.width d := by
    intro d
    have := hbox d
    unfold Box.width
    linarith
  have hn : (collectAll owned ++ collectAll halo).Nodup := by
    have := hin.nodup
    rw [List.nodup_append] at this
    exact this.1
  exact ((ot_complete hcut hskin hil ha hn hf hg hgh (grow_width hw hil.le) hm hh).with_remainder hcut hin hhb _).once x hx y hy hxy hxo hyo hd

/-- No contribution is received twice, and only stored particles take part. (Whatever the positions.) -/
theorem C70_nothing_twice (ha : ∀ l, (arrange l).Perm l) (hf : OTFunctor cutoff pos own c18 f)
    (hin : RemInput (collectAll owned ++ collectAll halo) pb hb) (x y : P) :
    timesReceived (otInteractions pos own cutoff skin f c18 arrange b owned halo pb hb) x y ≤ 1 ∧
    (timesReceived (otInteractions pos own cutoff skin f c18 arrange b owned halo pb hb) x y ≠ 0 →
      x ∈ (collectAll owned ++ collectAll halo) ++ (pb.flatten ++ hb.flatten) ∧
      y ∈ (collectAll owned ++ collectAll halo) ++ (pb.flatten ++ hb.flatten) ∧ x ≠ y) := by
  have hn : (collectAll owned ++ collectAll halo).Nodup := by
    have := hin.nodup
    rw [List.nodup_append] at this
    exact this.1
  have hc := (ot_noDouble (il := cutoff + skin) (b := b) (hb := b.grow (cutoff + skin)) ha hn hf).with_remainder hin pos own cutoff f.newton3
  exact ⟨hc.most x y, hc.mem x y⟩

/-- What the user sees: the sum over all other particles. -/
theorem C70_accumulates_sum {M : Type} [AddCommMonoid M] (hcut : 0 ≤ cutoff) (hskin : 0 ≤ skin) (hil : 0 < cutoff + skin) (hbox : ∀ d : Ax, comp b.lo d < comp b.hi d)
    (ha : ∀ l, (arrange l).Perm l) (hf : OTFunctor cutoff pos own c18 f)
    (hg : Good (cutoff + skin) home owned b) (hgh : Good (cutoff + skin) home halo (b.grow (cutoff + skin)))
    (hm : ∀ p ∈ collectAll owned ++ collectAll halo, 4 * distSq (pos p) (home p) ≤ skin * skin)
    (hh : ∀ p ∈ collectAll halo, own p ≠ .owned)
    (hin : RemInput (collectAll owned ++ collectAll halo) pb hb) (hhb : ∀ x ∈ hb.flatten, own x = .halo) (F : P → P → M)
    (hz : ∀ x y, (own y = .dummy ∨ cutoff * cutoff ≤ distSq (pos x) (pos y)) → F x y = 0) (x : P)
    (hx : x ∈ (collectAll owned ++ collectAll halo) ++ (pb.flatten ++ hb.flatten)) (hxo : own x = .owned) :
    accumulated F (otInteractions pos own cutoff skin f c18 arrange b owned halo pb hb) x =
      ((((collectAll owned ++ collectAll halo) ++ (pb.flatten ++ hb.flatten)).filter fun y => y ≠ x).map (F x)).sum := by
  have hw : ∀ d, 0 ≤ b.width d := by
    intro d
    have := hbox d
    unfold Box.width
    linarith
  have hn : (collectAll owned ++ collectAll halo).Nodup := by
    have := hin.nodup
    rw [List.nodup_append] at this
    exact this.1
  exact ((ot_complete hcut hskin hil ha hn hf hg hgh (grow_width hw hil.le) hm hh).with_remainder hcut hin hhb _).accumulated hin.nodup F hz x hx hxo

/-- Trees built by inserting particles one by one. -/
def otBuild (home : P → V3 Rat) (il : Rat) (b : Box) (l : List P) : OTree P := l.foldl (insert home treeSplitThreshold il b) (.leaf [])

omit [DecidableEq P] in
theorem otBuild_spec (home : P → V3 Rat) (il : Rat) (b : Box) (l : List P) (h : ∀ p ∈ l, InBox (home p) b.lo b.hi) :
    Good il home (otBuild home il b l) b ∧ (collectAll (otBuild home il b l)).Perm l := by
  have key : ∀ (l : List P) (t : OTree P), (∀ p ∈ l, InBox (home p) b.lo b.hi) → Good il home t b →
      Good il home (l.foldl (insert home treeSplitThreshold il b) t) b ∧
      (collectAll (l.foldl (insert home treeSplitThreshold il b) t)).Perm (l ++ collectAll t) := by
    intro l
    induction l with
    | nil => intro t _ hg; exact ⟨hg, List.Perm.refl _⟩
    | cons q l ihl =>
      intro t hl hg
      obtain ⟨g1, g2⟩ := insert_spec (thr := treeSplitThreshold) hg (hl q (by simp))
      obtain ⟨g3, g4⟩ := ihl _ (fun x hx => hl x (by simp [hx])) g1
      exact ⟨g3, g4.trans ((g2.append_left l).trans List.perm_middle)⟩
  obtain ⟨g1, g2⟩ := key l (.leaf []) h (fun p hp => by cases hp)
  have e : collectAll (.leaf [] : OTree P) = [] := rfl
  rw [e, List.append_nil] at g2
  exact ⟨g1, g2⟩

/-- From insertion to interaction: whatever particles are inserted, in whatever order. -/
theorem C70_inserted_particles_interact {lo lh : List P} (hcut : 0 ≤ cutoff) (hskin : 0 ≤ skin) (hil : 0 < cutoff + skin) (hbox : ∀ d : Ax, comp b.lo d < comp b.hi d)
    (ha : ∀ l, (arrange l).Perm l) (hf : OTFunctor cutoff pos own c18 f) (hn : (lo ++ lh).Nodup)
    (hlo : ∀ p ∈ lo, own p = .owned ∧ InBox (home p) b.lo b.hi)
    (hlh : ∀ p ∈ lh, own p = .halo ∧ InBox (home p) (b.grow (cutoff + skin)).lo (b.grow (cutoff + skin)).hi)
    (hm : ∀ p ∈ lo ++ lh, 4 * distSq (pos p) (home p) ≤ skin * skin) (x y : P) (hx : x ∈ lo) (hy : y ∈ lo ++ lh) (hxy : x ≠ y)
    (hd : distSq (pos x) (pos y) < cutoff * cutoff) :
    timesReceived (otInteractions pos own cutoff skin f c18 arrange b (otBuild home (cutoff + skin) b lo)
      (otBuild home (cutoff + skin) (b.grow (cutoff + skin)) lh) [] []) x y = 1 := by
  obtain ⟨g1, p1⟩ := otBuild_spec home (cutoff + skin) b lo fun p hp => (hlo p hp).2
  obtain ⟨g2, p2⟩ := otBuild_spec home (cutoff + skin) (b.grow (cutoff + skin)) lh fun p hp => (hlh p hp).2
  have pp := p1.append p2
  refine C70_every_neighbour_once hcut hskin hil hbox ha hf g1 g2 (fun p hp => hm p (pp.subset hp))
    (fun p hp => by rw [(hlh p (p2.subset hp)).1]; decide) ⟨by simpa using pp.nodup_iff.2 hn, rfl⟩ (by simp) x y ?_ ?_ hxy (hlo x hx).1 ?_ hd
  · exact List.mem_append.2 (.inl (pp.symm.subset (List.mem_append.2 (.inl hx))))
  · exact List.mem_append.2 (.inl (pp.symm.subset hy))
  · rcases List.mem_append.1 hy with h | h
    · rw [(hlo y h).1]; decide
    · rw [(hlh y h).1]; decide

end

/-! Non-vacuity: forty particles in a row, divided trees, particles in different leaves. -/

private def xBox : Box := ⟨⟨0, 0, 0⟩, ⟨20, 20, 20⟩⟩
private def xOwned : List Particle := (List.range 39).map fun i => ⟨i, ⟨(i : Rat) / 2 + 1 / 4, 10, 10⟩, .owned⟩
private def xHalo : List Particle := [⟨100, ⟨-1/4, 10, 10⟩, .halo⟩]

example (c18 soa : Bool) : timesReceived (otInteractions Particle.pos Particle.own 1 (1/2)
    ⟨fun p => decide (p.own = .halo), soa, c18, false, 0, 1, ⟨1, 1, 1⟩, sortByProjection Particle.pos⟩ c18 List.reverse xBox
    (otBuild Particle.pos (1 + 1/2) xBox xOwned) (otBuild Particle.pos (1 + 1/2) (xBox.grow (1 + 1/2)) xHalo) [] [])
    ⟨19, ⟨39/4, 10, 10⟩, .owned⟩ ⟨20, ⟨41/4, 10, 10⟩, .owned⟩ = 1 ∧
    (∃ c, otBuild Particle.pos (1 + 1/2) xBox xOwned = .inner c) := by
  constructor
  · have hf : OTFunctor 1 Particle.pos Particle.own c18
        ⟨fun p => decide (p.own = .halo), soa, c18, false, 0, 1, ⟨1, 1, 1⟩, sortByProjection Particle.pos⟩ :=
      ⟨rfl, rfl, rfl, sortByProjection_sorted _, fun _ => rfl⟩
    refine C70_inserted_particles_interact (cutoff := 1) (skin := 1/2) (home := Particle.pos) (by norm_num) (by norm_num) (by norm_num) (by intro d; cases d <;> decide +kernel)
      (fun l => List.reverse_perm l) hf (by decide +kernel) (by decide +kernel) (by decide +kernel) ?_ _ _
      (by decide +kernel) (by decide +kernel) (by decide) (by decide +kernel)
    intro p _
    simp [distSq]
  · have h : (match otBuild Particle.pos (1 + 1/2) xBox xOwned with | .inner _ => true | .leaf _ => false) = true := by decide +kernel
    revert h
    cases otBuild Particle.pos (1 + 1/2) xBox xOwned with
    | leaf ps => intro h; cases h
    | inner c => intro _; exact ⟨c, rfl⟩

end Verif
