import Verif.Model.CellFunctor
import Verif.Model.Ownership
import Verif.Spec.Geometry
/-!
Model of the neighbour list construction of /repo/src/autopas/containers/verletListsCellBased/verletLists/VerletListHelpers.h
and of its use by VLListIterationTraversal.h (AoS data layout, no Newton 3: with Newton 3 the traversal is never applicable,
VLListIterationTraversal.h:39-42).

A neighbour list map is the list of its (particle, neighbour) entries.
-/
namespace Verif

/-- `VerletListGeneratorFunctor::AoSFunctor`, VerletListHelpers.h:64-83: the entry added by one call. -/
def verletGen {P : Type} (pos : P → V3 Rat) (own : P → Ownership) (il : Rat) (c : PairCall P) : List (P × P) :=
  if own c.p = .dummy ∨ own c.q = .dummy then []
  else if Spec.distSq (pos c.p) (pos c.q) < il * il then [(c.p, c.q)] else []

/-- The neighbour lists after the traversal that makes the calls `calls` (VerletLists.h:118-140). -/
def verletBuild {P : Type} (pos : P → V3 Rat) (own : P → Ownership) (il : Rat) (calls : List (PairCall P)) : List (P × P) :=
  calls.flatMap (verletGen pos own il)

/-- `VLListIterationTraversal::traverseParticles` for AoS without Newton 3, VLListIterationTraversal.h:78-93: the functor
calls. -/
def verletIterate {P : Type} (lists : List (P × P)) : List (PairCall P) := lists.map fun e => ⟨e.1, e.2, false⟩

end Verif
