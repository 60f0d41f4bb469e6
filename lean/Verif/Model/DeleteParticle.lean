import Verif.Model.Iterator
import Verif.Model.Outcome
/-!
Model of `AutoPas::deleteParticle(Particle &)`: /repo/src/autopas/AutoPasImpl.h:300-309,
/repo/src/autopas/LogicHandler.h:377-392 and the `deleteParticle(Particle &)` functions of the containers.

A reference is the place it points to. Different vectors occupy disjoint memory, so the address comparisons with `front()` and
`back()` of a vector ask whether the place is in that vector. The particle counters are in the model of the logic handler.
-/
namespace Verif

/-- Where a reference points to: element `i` of the `k`-th insertion buffer, halo buffer, or cell. -/
inductive Place
  | buf (k i : Nat)
  | haloBuf (k i : Nat)
  | cell (k i : Nat)
deriving DecidableEq, Repr

/-- All stored particles: `_particleBuffer`, `_haloParticleBuffer` (LogicHandler.h:931-939) and the cells of the container. -/
structure Stored where
  bufs : List (List Particle)
  haloBufs : List (List Particle)
  cells : List (List Particle)
deriving DecidableEq, Repr

/-- Dereferencing; `none` if there is no such element (any more). -/
def Stored.get (s : Stored) : Place → Option Particle
  | .buf k i => (s.bufs.getD k [])[i]?
  | .haloBuf k i => (s.haloBufs.getD k [])[i]?
  | .cell k i => (s.cells.getD k [])[i]?

/-- Assignment through a reference. -/
def Stored.write (s : Stored) (r : Place) (p : Particle) : Stored :=
  match r with
  | .buf k i => { s with bufs := s.bufs.set k ((s.bufs.getD k []).set i p) }
  | .haloBuf k i => { s with haloBufs := s.haloBufs.set k ((s.haloBufs.getD k []).set i p) }
  | .cell k i => { s with cells := s.cells.set k ((s.cells.getD k []).set i p) }

/-- `_cells[c]._particles.pop_back()` -/
def Stored.popCell (s : Stored) (c : Nat) : Stored := { s with cells := s.cells.set c (s.cells.getD c []).dropLast }

/-- `deleteParticleFromBuffers`, LogicHandler.h:377-392. `none`: nothing found. -/
def deleteFromBuffers (s : Stored) (r : Place) (p : Particle) : Option (Stored × Bool) :=
  match r with
  | .buf k i =>
    if p.own = .owned then
      some ({ s with bufs := s.bufs.set k (swapDelete (s.bufs.getD k []) i) }, decide (i + 1 ≠ (s.bufs.getD k []).length))
    else none
  | .haloBuf k i =>
    if p.own = .owned then none
    else some ({ s with haloBufs := s.haloBufs.set k (swapDelete (s.haloBufs.getD k []) i) },
      decide (i + 1 ≠ (s.haloBufs.getD k []).length))
  | .cell _ _ => none

/-- `particle = cell.back(); cell.pop_back();` for a reference that may or may not point into that cell, together with
`&particle == &cell.back()` evaluated before. -/
def swapDelFromCell (s : Stored) (r : Place) (c : Nat) : Outcome (Stored × Bool) :=
  match (s.cells.getD c []).getLast? with
  | none => .ub
  | some back => .ok ((s.write r back).popCell c, decide (r = .cell c ((s.cells.getD c []).length - 1)))

/-- `LinkedCells::deleteParticle(Particle &)`, /repo/src/autopas/containers/linkedCells/LinkedCells.h:287-295. -/
def lcDelete (b : CellBlock) (s : Stored) (r : Place) (p : Particle) : Outcome (Stored × Bool) :=
  (swapDelFromCell s r (b.flatIndexOfPosition p.pos)).bind fun x => .ok (x.1, !x.2)

/-- `VerletListsLinkedBase::deleteParticle(Particle &)`, /repo/src/autopas/containers/verletListsCellBased/VerletListsLinkedBase.h:156-160,
and the same in LinkedCellsReferences.h:281-285 and VerletClusterLists.h:346-350: the particle becomes a dummy. -/
def markDelete (s : Stored) (r : Place) (p : Particle) : Outcome (Stored × Bool) := .ok (s.write r { p with own := .dummy }, false)

/-- One iteration of the loop over dimensions in `DirectSum::deleteParticle`, DirectSum.h:338-348. `inl`: the function returns. -/
def dsDeleteDim (s : Stored) (r : Place) (pos lo hi skinHalf : Rat) (d : Nat) : Outcome (Sum (Stored × Bool) Stored) :=
  if pos < lo + skinHalf then
    (swapDelFromCell s r (2 * d + 1)).bind fun x => .ok (if x.2 then .inl (x.1, true) else .inr x.1)
  else if hi - skinHalf ≤ pos then
    (swapDelFromCell s r (2 * d + 2)).bind fun x => .ok (if x.2 then .inl (x.1, true) else .inr x.1)
  else .ok (.inr s)

/-- `DirectSum::deleteParticle(Particle &)`, /repo/src/autopas/containers/directSum/DirectSum.h:318-351. -/
def dsDelete (bMin bMax : V3 Rat) (skinHalf : Rat) (s : Stored) (r : Place) (p : Particle) : Outcome (Stored × Bool) :=
  match p.own with
  | .owned => swapDelFromCell s r 0
  | .halo =>
    (dsDeleteDim s r p.pos.x bMin.x bMax.x skinHalf 0).bind fun
      | .inl res => .ok res
      | .inr s1 => (dsDeleteDim s1 r p.pos.y bMin.y bMax.y skinHalf 1).bind fun
        | .inl res => .ok res
        | .inr s2 => (dsDeleteDim s2 r p.pos.z bMin.z bMax.z skinHalf 2).bind fun
          | .inl res => .ok res
          | .inr s3 => .ok (s3, false)
  | .dummy => .ok (s, false)

/-- `AutoPas::deleteParticle(Particle &)`, AutoPasImpl.h:300-309, on top of a container. A dangling reference is undefined
behaviour. -/
def apasDelete (container : Stored → Place → Particle → Outcome (Stored × Bool)) (s : Stored) (r : Place) :
    Outcome (Stored × Bool) :=
  match s.get r with
  | none => .ub
  | some p =>
    match deleteFromBuffers s r p with
    | some res => .ok res
    | none => container s r p

end Verif
