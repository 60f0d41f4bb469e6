import Verif.Model.VerletListsCells
/-!
The pairwise Verlet lists, `VerletListsCells` with `VLCCellPairNeighborList`:
/repo/src/autopas/containers/verletListsCellBased/verletListsCells/ (neighborLists/VLCCellPairNeighborList.h,
neighborLists/VLCCellPairGeneratorFunctor.h, traversals/VLCCellPairC08CellHandler.h, traversals/VLCCellPairC08Traversal.h,
traversals/VLCTraversalInterface.h). There is one list per particle and neighbouring cell; `_globalToLocalIndex` tells which of the lists
prepared for a cell belongs to which neighbouring cell. Accesses outside of the prepared lists are undefined behaviour: `none`.
-/
namespace Verif
section
variable {P : Type}

/-- `_globalToLocalIndex` and `_aosNeighborList`, VLCCellPairNeighborList.h:234-252. `known`: for every cell the neighbouring cells that have
a number, in the order of their numbers (each new one gets the current size of the map, VLCCellPairGeneratorFunctor.h:82). `slots`: for
every cell, for every such number, the lists of the particles of the cell. -/
structure VLPLists (P : Type) where
  known : List (List Nat)
  slots : List (List (List (P × List P)))

/-- The number of neighbouring cells, VLCCellPairNeighborList.h:97-125. (`std::abs(x) - 1` is at least 0 after `max`.) -/
def vlpSlots (cl : V3 Rat) (il : Rat) (newton3 : Bool) : Nat :=
  let ov := overlapOf il cl
  let pos := fun (x : Int) (l : Rat) => ((max 0 ((x.natAbs : Int) - 1) : Int) : Rat) * l
  let neighborCells := ((forInt (-ov.x) ov.x).flatMap fun x => (forInt (-ov.y) ov.y).flatMap fun y =>
    (forInt (-ov.z) ov.z).filter fun z =>
      let v : V3 Rat := ⟨pos x cl.x, pos y cl.y, pos z cl.z⟩
      v.dot v ≤ il * il).length
  if newton3 then
    let half := neighborCells / 2
    if half % 2 ≠ 0 then half + 1 else half
  else neighborCells

/-- The empty lists, VLCCellPairNeighborList.h:85-92, 127-144. -/
def vlpEmpty (cells : List (List P)) (n : Nat) : VLPLists P :=
  ⟨cells.map fun _ => [], cells.map fun cell => List.replicate n (cell.map fun p => (p, []))⟩

/-- Looking up the number of cell `cell2` among the neighbours of `cell1`, giving it one if necessary, and accessing its lists:
VLCCellPairGeneratorFunctor.h:78-85 (AoS), :103-109 (SoA, one cell), :165-171 (SoA, two cells). -/
def vlpRegister (s : VLPLists P) (cell1 cell2 : Nat) : Option (VLPLists P × Nat) :=
  let known := s.known.modify cell1 fun l => if cell2 ∈ l then l else l ++ [cell2]
  let localIndex := (known.getD cell1 []).idxOf cell2
  if localIndex < (s.slots.getD cell1 []).length then some (⟨known, s.slots⟩, localIndex) else none

/-- `_neighborLists[cellIndex][secondCellIndexInFirst][particleIndex].second.push_back(&j)`, VLCCellPairGeneratorFunctor.h:75-85; in the SoA
versions (:128-131, :191) the place in the SoA is that in the cell, see `vlcPush`. -/
def vlpPush [DecidableEq P] (cells : List (List P)) (s : VLPLists P) (p q : P) : Option (VLPLists P) := do
  let (cellIndex, particleIndex) := particleToCell cells p
  let (s, localIndex) ← vlpRegister s cellIndex (particleToCell cells q).1
  return ⟨s.known, s.slots.modify cellIndex fun pairs => pairs.modify localIndex fun l =>
    l.modify particleIndex fun e => (e.1, e.2 ++ [q])⟩

/-- One call of the generator functor for a pair; `vlcIsNeighbour` is the same test as in `VLCAllCellsGeneratorFunctor`
(VLCCellPairGeneratorFunctor.h:63-68, 117-127, 180-190). -/
def vlpGenerate [DecidableEq P] (pos : P → V3 Rat) (own : P → Ownership) (il : Rat) (soa : Bool) (cells : List (List P)) (s : VLPLists P)
    (c : PairCall P) : Option (VLPLists P) :=
  if vlcIsNeighbour pos own il soa c.p c.q then vlpPush cells s c.p c.q else some s

/-- The look-ups at the start of `SoAFunctorSingle` and `SoAFunctorPair`, VLCCellPairGeneratorFunctor.h:92-109, 148-171, which happen
whether or not there are neighbours, for the calls that the cell functor makes (CellFunctor.h:141-204, see `CellFunctorCfg.op`).
(The two look-ups of the two calls for a pair of cells without Newton 3 concern different cells, so their order is of no effect.) -/
def vlpLookups (f : CellFunctorCfg P) (cells : List (PCell P)) : CellOp → List (Nat × Nat)
  | .self i =>
    if f.soa = true ∧ (cellAt cells i).particles.isEmpty = false ∧ (cellAt cells i).hasOwned = true then [(i.toNat, i.toNat)] else []
  | .pair i j _ =>
    let cell1 := cellAt cells i
    let cell2 := cellAt cells j
    if f.soa = true ∧ ¬ (cell1.particles.isEmpty ∨ cell2.particles.isEmpty) ∧
        ¬ ((cell1.hasOwned = false ∧ f.newton3 = false ∧ f.bidirectional = false) ∨ (cell1.hasOwned = false ∧ cell2.hasOwned = false)) then
      (i.toNat, j.toNat) :: (if f.newton3 = false ∧ f.bidirectional = true then [(j.toNat, i.toNat)] else [])
    else []

/-- What one call of the cell functor does to the lists. -/
def vlpStep [DecidableEq P] (pos : P → V3 Rat) (own : P → Ownership) (il : Rat) (f : CellFunctorCfg P) (pcells : List (PCell P))
    (cells : List (List P)) (s : VLPLists P) (op : CellOp) : Option (VLPLists P) := do
  let s ← (vlpLookups f pcells op).foldlM (fun s k => (vlpRegister s k.1 k.2).map Prod.fst) s
  (f.op pcells op).foldlM (vlpGenerate pos own il f.soa cells) s

/-- `buildAoSNeighborList`, VLCCellPairNeighborList.h:82-148, 213-233: the `lc_c18` traversal with the generator functor. -/
def vlpBuild [DecidableEq P] (pos : P → V3 Rat) (own : P → Ownership) (blk : CellBlock) (il : Rat) (f : CellFunctorCfg P) (cells : List (List P)) :
    Option (VLPLists P) :=
  (LCTraversal.c18.ops blk.dims blk.cellLength il).flatten.flatten.foldlM (vlpStep pos own il f (lcCells blk cells) cells)
    (vlpEmpty cells (vlpSlots blk.cellLength il f.newton3))

/-- The lists for cell pair number `localIndex` of cell `cellIndex`. -/
def VLPLists.pairList (s : VLPLists P) (cellIndex localIndex : Nat) : List (P × List P) := (s.slots.getD cellIndex []).getD localIndex []

/-- The calls for the lists of one cell pair for AoS: VLCTraversalInterface.h:146-152, VLCCellPairC08CellHandler.h:68-72, 97-101. -/
def vlpListAoS (newton3 : Bool) (l : List (P × List P)) : List (PairCall P) := l.flatMap fun e => e.2.map fun q => ⟨e.1, q, newton3⟩

/-- `generateSoAFromAoS`, VLCCellPairNeighborList.h:150-194, for one cell pair. -/
def vlpSoAList [DecidableEq P] (order : List P) (l : List (P × List P)) : List (Nat × List Nat) :=
  l.map fun e => (indexIn order e.1, e.2.map (indexIn order))

/-- The calls for the lists of one cell pair for SoA: VLCTraversalInterface.h:160-166, VLCCellPairC08CellHandler.h:79-83, 108-112. -/
def vlpListSoA (newton3 : Bool) (soa : List (Option P)) (l : List (Nat × List Nat)) : List (PairCall P) :=
  l.flatMap fun e => if e.2.isEmpty then [] else e.2.filterMap fun j =>
    match soa.getD e.1 none, soa.getD j none with
    | some p, some q => some ⟨p, q, newton3⟩
    | _, _ => none

/-- Both layouts. -/
def vlpList [DecidableEq P] (soa newton3 : Bool) (order : List P) (cells : List (List P)) (l : List (P × List P)) : List (PairCall P) :=
  if soa then vlpListSoA newton3 (soaLoad cells) (vlpSoAList order l) else vlpListAoS newton3 l

/-- `processCellListsImpl` for pairwise lists, VLCTraversalInterface.h:143-170, for the base cells of a package. -/
def vlpPackage [DecidableEq P] (soa newton3 : Bool) (dims : V3 Nat) (order : List P) (cells : List (List P)) (s : VLPLists P)
    (bases : List (V3 Nat)) : List (PairCall P) :=
  bases.flatMap fun b => (s.slots.getD (threeToOneD b dims) []).flatMap (vlpList soa newton3 order cells)

/-- `vlp_c01`, `vlp_c18`, `vlp_sliced`, `vlp_sliced_balanced`, `vlp_sliced_c02`: the traversals of Verif/Model/VerletListsCells.lean on pairwise
lists. -/
def vlpCalls [DecidableEq P] (soa newton3 : Bool) (dims : V3 Nat) (order : List P) (cells : List (List P)) (s : VLPLists P)
    (bases : List (List (List (V3 Nat)))) : List (PairCall P) :=
  bases.flatten.flatMap (vlpPackage soa newton3 dims order cells s)

/-- The lists of cell `cell1` for its neighbour `cell2`, if there are any: VLCCellPairC08CellHandler.h:60-63, 90-92. -/
def VLPLists.find (s : VLPLists P) (cell1 cell2 : Nat) : List (P × List P) :=
  if cell2 ∈ s.known.getD cell1 [] then s.pairList cell1 ((s.known.getD cell1 []).idxOf cell2) else []

/-- The loop body of `processCellListsC08` for one pair of cells, VLCCellPairC08CellHandler.h:52-115. -/
def vlpCellPair [DecidableEq P] (soa newton3 : Bool) (order : List P) (cells : List (List P)) (s : VLPLists P) (cellA cellB : Int) :
    List (PairCall P) :=
  let cell1 := (min cellA cellB).toNat
  let cell2 := (max cellA cellB).toNat
  vlpList soa newton3 order cells (s.find cell1 cell2) ++
    if newton3 = false ∧ cell1 ≠ cell2 then vlpList soa newton3 order cells (s.find cell2 cell1) else []

/-- `processCellListsC08`, VLCCellPairC08CellHandler.h:44-117. `computePairwiseCellOffsetsC08<c08CellPairs>` gives the offsets of `c08Offsets`
without the directions (LCC08CellHandlerUtility.cpp:119-134). -/
def vlpC08Base [DecidableEq P] (soa newton3 : Bool) (blk : CellBlock) (il : Rat) (order : List P) (cells : List (List P)) (s : VLPLists P)
    (base : V3 Nat) : List (PairCall P) :=
  (c08Offsets blk.dims blk.cellLength il).flatMap fun o =>
    vlpCellPair soa newton3 order cells s ((threeToOneD base blk.dims : Int) + o.1) ((threeToOneD base blk.dims : Int) + o.2.1)

/-- `vlp_c08`, VLCCellPairC08Traversal.h:68-84: colours, base cells, calls. -/
def vlpC08Calls [DecidableEq P] (soa newton3 : Bool) (blk : CellBlock) (il : Rat) (order : List P) (cells : List (List P)) (s : VLPLists P) :
    List (List (List (PairCall P))) :=
  (c08Bases blk.dims (overlapOf il blk.cellLength).toNat).map fun colour => colour.map (vlpC08Base soa newton3 blk il order cells s)

end
end Verif
