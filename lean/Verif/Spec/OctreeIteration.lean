import Verif.Model.OctreeIter
import Verif.Spec.Octree
/-! Vocabulary for iteration over the octree. -/
namespace Verif.Spec
open Octree

/-- A user loop over an iterator of the octree ends after finitely many rounds, without touching anything undefined, having made the visits `vs`
and leaving the given trees and additional vectors. -/
def OTLoopEnds {P : Type} (cfg : OTIterCfg P) (body : List P → P → Option P) (owned halo : OTree P) (vecs : List (List P)) (vs : List (Visit P))
    (owned' halo' : OTree P) (vecs' : List (List P)) : Prop :=
  ∃ m0, ∀ m, m0 ≤ m → ∃ s t, OTIter.begin cfg owned halo vecs = .ok s ∧ OTIter.loop cfg body m [] s = .ok (vs, t) ∧
    t.owned = owned' ∧ t.halo = halo' ∧ t.vecs = vecs'

/-- No leaf is further than `n` divisions away from the root. -/
def DepthAtMost {P : Type} : Nat → OTree P → Prop
  | _, .leaf _ => True
  | 0, .inner _ => False
  | n + 1, .inner c => ∀ o, DepthAtMost n (c o)

/-- Every particle is in a leaf whose box contains a position that is (along every axis) at most `m` away from that of the particle: no particle moved
further since it was sorted in. -/
def SortedWithin (m : Rat) : OTree Particle → Box → Prop
  | .leaf ps, b => ∀ p ∈ ps, ∃ old : V3 Rat, InBox old b.lo b.hi ∧ |p.pos.x - old.x| ≤ m ∧ |p.pos.y - old.y| ≤ m ∧ |p.pos.z - old.z| ≤ m
  | .inner c, b => ∀ o, SortedWithin m (c o) (childBox b o)

/-- Storage of an octree container: owned particles in one tree, halo particles in the other (either may have become dummies), nothing moved further
than `m` since it was sorted in; the trees are not deeper than 18, no vector is longer than `size_t` can count. -/
structure OTStorage (c : OTCfg) (m : Rat) (owned halo : OTree Particle) (vecs : List (List Particle)) : Prop where
  ownedIn : ∀ p ∈ collectAll owned, p.own ≠ .halo
  haloIn : ∀ p ∈ collectAll halo, p.own ≠ .owned
  ownedDepth : DepthAtMost 18 owned
  haloDepth : DepthAtMost 18 halo
  ownedSorted : SortedWithin m owned c.box
  haloSorted : SortedWithin m halo c.haloBox
  ownedSmall : (collectAll owned).length < 2 ^ 64
  haloSmall : (collectAll halo).length < 2 ^ 64
  vsmall : ∀ l ∈ vecs, l.length < 2 ^ 64
  vnum : vecs.length < 2 ^ 64

end Verif.Spec
