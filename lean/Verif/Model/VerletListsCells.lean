import Verif.Model.VerletListsUse
/-!
The VerletListsCells container with `VLCAllCellsNeighborList`:
/repo/src/autopas/containers/verletListsCellBased/verletListsCells/ (VerletListsCells.h, neighborLists/VLCAllCellsNeighborList.h,
neighborLists/VLCAllCellsGeneratorFunctor.h, neighborLists/VLCNeighborListInterface.h, traversals/VLCC01Traversal.h, VLCC18Traversal.h,
VLCSlicedTraversal.h, VLCSlicedC02Traversal.h, VLCSlicedBalancedTraversal.h, VLCTraversalInterface.h).
The list construction for `vlc_c08` is in Verif/Model/VerletListsC08.lean.
-/
namespace Verif
section
variable {P : Type}

/-- `AllCellsNeighborListsType`, VerletListsCellsHelpers.h:26-27: for every cell, for every particle in it, the list of its neighbours. -/
abbrev VLCLists (P : Type) := List (List (P × List P))

/-- `_particleToCellMap[&p]`, VLCAllCellsNeighborList.h:138-144: cell and place in the cell of a particle. -/
def particleToCell [DecidableEq P] (cells : List (List P)) (p : P) : Nat × Nat :=
  let k := cells.findIdx fun cell => p ∈ cell
  (k, (cells.getD k []).idxOf p)

/-- The empty lists, VLCAllCellsNeighborList.h:122-145 (`reserve` left out). -/
def vlcEmpty (cells : List (List P)) : VLCLists P := cells.map fun cell => cell.map fun p => (p, [])

/-- The test of the generator functor, VLCAllCellsGeneratorFunctor.h:74-79 for AoS, :152-162, :227-237 for SoA, where dummies are not
left out. -/
def vlcIsNeighbour (pos : P → V3 Rat) (own : P → Ownership) (il : Rat) (soa : Bool) (p q : P) : Bool :=
  (soa || decide (own p ≠ .dummy ∧ own q ≠ .dummy)) && decide (Spec.distSq (pos p) (pos q) < il * il)

/-- `_neighborLists[cellIndex][particleIndex].second.push_back(&j)`, VLCAllCellsGeneratorFunctor.h:122-123 for AoS. In the SoA versions
(:163-168, :218, :240) the cell is that of the first particle of the SoA and the place is that in the SoA, into which the cell was
loaded in its order; `push_back` for each interaction of the first with the second particle. -/
def vlcPush [DecidableEq P] (cells : List (List P)) (lists : VLCLists P) (p q : P) : VLCLists P :=
  let (cellIndex, particleIndex) := particleToCell cells p
  lists.modify cellIndex fun cellLists => cellLists.modify particleIndex fun e => (e.1, e.2 ++ [q])

/-- One call of the generator functor for a pair. -/
def vlcGenerate [DecidableEq P] (pos : P → V3 Rat) (own : P → Ownership) (il : Rat) (soa : Bool) (cells : List (List P)) (lists : VLCLists P)
    (c : PairCall P) : VLCLists P :=
  if vlcIsNeighbour pos own il soa c.p c.q then vlcPush cells lists c.p c.q else lists

/-- `buildAoSNeighborList`, VLCAllCellsNeighborList.h:64-148, 230-270, for all traversals but `vlc_c08`: the `lc_c18` traversal with the
generator functor. `f` is the cell functor of that traversal (its Newton 3 flag is that of the traversal that will use the lists,
VerletListsCells.h:283). -/
def vlcBuild [DecidableEq P] (pos : P → V3 Rat) (own : P → Ownership) (blk : CellBlock) (il : Rat) (f : CellFunctorCfg P) (cells : List (List P)) :
    VLCLists P :=
  (f.run (lcCells blk cells) (LCTraversal.c18.ops blk.dims blk.cellLength il)).foldl (vlcGenerate pos own il f.soa cells) (vlcEmpty cells)

/-- The traversals of the container that use these lists. `sliced thick` stands for `vlc_sliced` and `vlc_sliced_balanced`. -/
inductive VLCTraversal
  | c01
  | c18
  | sliced (thick : List Nat)
  | slicedC02

/-- `_overlap` of the sliced traversals that look both ways, /repo/src/autopas/containers/cellTraversals/SlicedBasedTraversal.h:183-189 with
`spaciallyForward = false` (VLCSlicedTraversal.h:55-56). -/
def doubleOverlap (ov : V3 Nat) : V3 Nat := ⟨2 * ov.x, 2 * ov.y, 2 * ov.z⟩

/-- The base cells: phases separated by barriers, in each phase packages that may run concurrently, in each package base cells one
after the other. VLCC01Traversal.h:85-89, VLCC18Traversal.h:86-90, VLCSlicedTraversal.h:96-100, VLCSlicedC02Traversal.h:91-95 (slices of
SlicedC02BasedTraversal.h:66-71). -/
def VLCTraversal.bases (t : VLCTraversal) (dims : V3 Nat) (cl : V3 Rat) (il : Rat) : List (List (List (V3 Nat))) :=
  let ov := (overlapOf il cl).toNat
  let ov2 := doubleOverlap ov
  match t with
  | .c01 => (c01Bases dims ov).map fun colour => colour.map fun b => [b]
  | .c18 => (c18Bases true dims ov).map fun colour => colour.map fun b => [b]
  | .sliced thick => [(List.range thick.length).map fun slice =>
      (processed (sliceProgram (ov2.get (longestAxis dims)) thick slice)).flatMap (layerBases false dims ov2)]
  | .slicedC02 => slicedC02Packs false dims ov2
      (sliceThickness false (dims.get (longestAxis dims)) (ov2.get (longestAxis dims)) (ov2.get (longestAxis dims)))

/-- `processCellListsImpl` for AoS, VLCTraversalInterface.h:112-121. -/
def vlcProcessAoS (newton3 : Bool) (lists : VLCLists P) (cellIndex : Nat) : List (PairCall P) :=
  (lists.getD cellIndex []).flatMap fun e => e.2.map fun q => ⟨e.1, q, newton3⟩

/-- `generateSoAFromAoS`, VLCAllCellsNeighborList.h:175-212. `order` is the order of iteration, which is that of the cells (C30).
(`at` of an unknown particle would throw; the lists only hold stored particles.) -/
def vlcSoALists [DecidableEq P] (order : List P) (lists : VLCLists P) : List (List (Nat × List Nat)) :=
  lists.map fun cellLists => cellLists.map fun e => (indexIn order e.1, e.2.map (indexIn order))

/-- `processCellListsImpl` for SoA, VLCTraversalInterface.h:123-130, with `SoAFunctorVerlet` as documented
(/repo/src/autopas/baseFunctors/PairwiseFunctor.h:75-91). -/
def vlcProcessSoA (newton3 : Bool) (soa : List (Option P)) (lists : List (List (Nat × List Nat))) (cellIndex : Nat) : List (PairCall P) :=
  (lists.getD cellIndex []).flatMap fun e => if e.2.isEmpty then [] else e.2.filterMap fun j =>
    match soa.getD e.1 none, soa.getD j none with
    | some p, some q => some ⟨p, q, newton3⟩
    | _, _ => none

/-- What one package of base cells does, with the lists `lists` built when the order of iteration was `order`; `cells` are the cells now.
`loadSoA`, VLCNeighborListInterface.h:67-86, is the same as in `VLListIterationTraversal`. -/
def vlcPackage [DecidableEq P] (soa newton3 : Bool) (dims : V3 Nat) (order : List P) (cells : List (List P)) (lists : VLCLists P)
    (bases : List (V3 Nat)) : List (PairCall P) :=
  bases.flatMap fun b =>
    if soa then vlcProcessSoA newton3 (soaLoad cells) (vlcSoALists order lists) (threeToOneD b dims)
    else vlcProcessAoS newton3 lists (threeToOneD b dims)

/-- `VerletListsCells::computeInteractions`, VerletListsCells.h:99-109. -/
def vlcCalls [DecidableEq P] (soa newton3 : Bool) (dims : V3 Nat) (order : List P) (cells : List (List P)) (lists : VLCLists P)
    (bases : List (List (List (V3 Nat)))) : List (PairCall P) :=
  bases.flatten.flatMap (vlcPackage soa newton3 dims order cells lists)

end
end Verif
