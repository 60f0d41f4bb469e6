import Verif.Model.VerletLists
import Verif.Model.LCInteract
/-!
The VerletLists container as a whole: /repo/src/autopas/containers/verletListsCellBased/verletLists/VerletLists.h, VerletListHelpers.h,
traversals/VLListIterationTraversal.h. Newton 3 is never used with it (VLListIterationTraversal.h:39-42).
-/
namespace Verif
section
variable {P : Type}

/-- One pair in `VerletListGeneratorFunctor::SoAFunctorSingle` and `SoAFunctorPair` without Newton 3, VerletListHelpers.h:90-165: no test
for dummies. -/
def verletGenSoA (pos : P → V3 Rat) (il : Rat) (c : PairCall P) : List (P × P) :=
  if Spec.distSq (pos c.p) (pos c.q) < il * il then [(c.p, c.q)] else []

/-- `updateVerletListsAoS(false)`, VerletLists.h:118-140: the `lc_c08` traversal with the generator functor, in the data layout chosen by
`_buildVerletListType`. `f` is the cell functor of that traversal; `f.soa` its data layout. -/
def verletListsBuild (pos : P → V3 Rat) (own : P → Ownership) (blk : CellBlock) (il : Rat) (f : CellFunctorCfg P) (cells : List (List P)) :
    List (P × P) :=
  let calls := f.run (lcCells blk cells) (LCTraversal.c08.ops blk.dims blk.cellLength il)
  if f.soa then calls.flatMap (verletGenSoA pos il) else verletBuild pos own il calls

/-- `offsets`, VLListIterationTraversal.h:49-52: a leading zero, then the inclusive scan. -/
def soaOffsets (cells : List (List P)) : List Nat := cells.scanl (fun sum cell => sum + cell.length) 0

/-- `SoALoader(cell, soa, offset, skipSoAResize)`, /repo/src/autopas/baseFunctors/Functor.h:196-231: the particles of the cell go to consecutive
places from the offset on. -/
def soaLoadCell (soa : List (Option P)) (offset : Nat) (cell : List P) : List (Option P) :=
  cell.zipIdx.foldl (fun a e => a.set (offset + e.2) (some e.1)) soa

/-- `initTraversal`, VLListIterationTraversal.h:44-61. -/
def soaLoad (cells : List (List P)) : List (Option P) :=
  let offsets := soaOffsets cells
  (List.range cells.length).foldl (fun soa i => soaLoadCell soa (offsets.getD i 0) (cells.getD i []))
    (List.replicate (offsets.getLastD 0) none)

/-- `_particlePtr2indexMap[ptr]`, VerletLists.h:169-177: the number of the particle in the order of iteration, which is that of the cells
(C30); for unknown particles `operator[]` makes an entry 0. -/
def indexIn [DecidableEq P] (order : List P) (p : P) : Nat := if p ∈ order then order.idxOf p else 0

/-- `generateSoAListFromAoSVerletLists`, VerletLists.h:163-196: the lists of indices. (Every particle has its own list in the map, so no two
lists are written to the same place.) -/
def soaListsOf [DecidableEq P] (order : List P) (lists : List (P × P)) : List (List Nat) :=
  (List.range order.length).map fun i => (lists.filter fun e => indexIn order e.1 = i).map fun e => indexIn order e.2

/-- `traverseParticles` for SoA, VLListIterationTraversal.h:106-120, with `SoAFunctorVerlet` as documented
(/repo/src/autopas/baseFunctors/PairwiseFunctor.h:75-91). -/
def verletIterateSoA (soa : List (Option P)) (lists : List (List Nat)) : List (PairCall P) :=
  (List.range lists.length).flatMap fun i => (lists.getD i []).filterMap fun j =>
    match soa.getD i none, soa.getD j none with
    | some p, some q => some ⟨p, q, false⟩
    | _, _ => none

/-- `VerletLists::computeInteractions`, VerletLists.h:74-88, for both data layouts. `order` is the order of iteration when the lists were
built, `cells` are the cells now. -/
def verletListsCalls [DecidableEq P] (soa : Bool) (order : List P) (cells : List (List P)) (lists : List (P × P)) : List (PairCall P) :=
  if soa then verletIterateSoA (soaLoad cells) (soaListsOf order lists) else verletIterate lists

end
end Verif
