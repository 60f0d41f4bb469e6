import Verif.Model.CellFunctor
import Verif.Model.Sliced
import Verif.Model.LCC18
import Verif.Model.LCC01
import Verif.Model.Iterator
/-!
From cells to particles: the pair functor calls that a linked-cells traversal makes, i.e. its calls to the cell functor
(models of the traversals) carried out by the cell functor (/repo/src/autopas/baseFunctors/CellFunctor.h) for both data layouts.
-/
namespace Verif

/-- What a `CellFunctor` object knows: template parameter `bidirectional`, constructor arguments (CellFunctor.h:33-40), sorting
threshold. `selfDir` is the direction along which a single cell is sorted (CellFunctor.h:223). `sorted dir l` is what
`SortedCellView(cell, dir)` makes of a cell (the result of `std::sort`, which is the same for the same input). -/
structure CellFunctorCfg (P : Type) where
  isHalo : P → Bool
  soa : Bool
  newton3 : Bool
  bidirectional : Bool
  threshold : Nat
  cutoff : Rat
  selfDir : V3 Rat
  sorted : V3 Rat → List P → List (Rat × P)

section
variable {P : Type}

/-- `SoAFunctorSingle(soa, newton3)`: all pairs of the SoA (documented meaning, /repo/src/autopas/baseFunctors/PairwiseFunctor.h:61-73).
Without Newton 3 every particle of the SoA is updated on account of every other. -/
def soaSingle (newton3 : Bool) (l : List P) : List (PairCall P) :=
  (pairLoop (fun _ _ => false) l).flatMap fun t => interactCross newton3 true t.1 t.2

/-- `SoAFunctorPair(soa1, soa2, newton3)` (documented meaning, PairwiseFunctor.h:93-106): without Newton 3 the particles of the first SoA
are updated. -/
def soaPair (newton3 : Bool) (l₁ l₂ : List P) : List (PairCall P) :=
  (crossLoop (fun _ _ => false) l₁ l₂).map fun t => ⟨t.1, t.2, newton3⟩

/-- `processCell`, CellFunctor.h:141-166, 321-330: both data layouts. The SoA buffer holds the particles of the cell. -/
def CellFunctorCfg.cell (f : CellFunctorCfg P) (cell : PCell P) : List (PairCall P) :=
  if f.soa then
    if cell.particles.isEmpty then []
    else if !cell.hasOwned then []
    else soaSingle f.newton3 cell.particles
  else processCell f.isHalo f.newton3 f.threshold f.cutoff f.selfDir cell (f.sorted f.selfDir cell.particles)

/-- `processCellPair`, CellFunctor.h:168-204, 303-319: both data layouts. -/
def CellFunctorCfg.cellPair (f : CellFunctorCfg P) (dir : V3 Rat) (cell1 cell2 : PCell P) : List (PairCall P) :=
  if f.soa then
    if cell1.particles.isEmpty ∨ cell2.particles.isEmpty then []
    else if (cell1.hasOwned = false ∧ f.newton3 = false ∧ f.bidirectional = false) ∨
        (cell1.hasOwned = false ∧ cell2.hasOwned = false) then []
    else soaPair f.newton3 cell1.particles cell2.particles ++
      (if f.newton3 = false ∧ f.bidirectional = true then soaPair false cell2.particles cell1.particles else [])
  else
    processCellPair f.newton3 f.bidirectional f.threshold f.cutoff dir cell1 cell2 (f.sorted dir cell1.particles)
      (f.sorted dir cell2.particles)

/-- Cell number `i` of the cell array. That all indices are in range is part of C07, C09, C11-C15. -/
def cellAt (cells : List (PCell P)) (i : Int) : PCell P := cells.getD i.toNat ⟨[], false⟩

/-- The functor calls of one cell functor call. -/
def CellFunctorCfg.op (f : CellFunctorCfg P) (cells : List (PCell P)) : CellOp → List (PairCall P)
  | .self i => f.cell (cellAt cells i)
  | .pair i j dir => f.cellPair dir (cellAt cells i) (cellAt cells j)

/-- The functor calls of a traversal (in the order of one possible schedule). -/
def CellFunctorCfg.run (f : CellFunctorCfg P) (cells : List (PCell P)) (ops : List (List (List CellOp))) : List (PairCall P) :=
  ops.flatten.flatten.flatMap (f.op cells)

/-- The linked-cells traversals for pairwise interactions (/repo/src/autopas/containers/linkedCells/traversals/). `slicedLock thick` stands for
`lc_sliced` and `lc_sliced_balanced`, which differ in the thickness of their slices. -/
inductive LCTraversal
  | c08
  | c18
  | c01
  | c04
  | c04HCP
  | slicedLock (thick : List Nat)
  | slicedC02

/-- The cell functor calls of a traversal. -/
def LCTraversal.ops (t : LCTraversal) (dims : V3 Nat) (cl : V3 Rat) (il : Rat) : List (List (List CellOp)) :=
  match t with
  | .c08 => lcC08 dims cl il
  | .c18 => lcC18 dims cl il
  | .c01 => lcC01 dims cl il
  | .c04 => lcC04 dims cl il
  | .c04HCP => lcC04HCP dims cl il
  | .slicedLock thick => lcSliced dims cl il thick
  | .slicedC02 => lcSlicedC02 dims cl il

/-- Template argument `bidirectional` of the cell functor: LCC08CellHandler.h:95-96 (used by c08, c04, c04_HCP and the sliced
traversals), LCC18Traversal.h:89-90, LCC01Traversal.h:147. -/
def LCTraversal.bidirectional : LCTraversal → Bool
  | .c01 => false
  | _ => true

/-- The cells of the container as the cell functor sees them: the ownership flags were set by `CellBlock3D::rebuild`
(/repo/src/autopas/containers/CellBlock3D.h:411-425; a cell cannot be both since halo cells are outside the box). -/
def lcCells (b : CellBlock) (cells : List (List P)) : List (PCell P) :=
  (List.range cells.length).map fun k => ⟨cells.getD k [], !b.cellCanContainHalo k⟩

end

end Verif
