import Verif.Model.CellOp
/-!
Model of /repo/src/autopas/baseFunctors/CellFunctor.h and CellFunctor3B.h for the AoS data layout (for SoA the whole cell
is handed to the functor), and of /repo/src/autopas/cells/SortedCellView.h.

Particles are of an arbitrary type `P`. The result of processing cells is the list of functor calls in program order.

Projections: the code projects on a normalised direction. The model projects on the direction before normalisation and
scales the comparison with the cutoff accordingly; in exact arithmetic this is the same.
-/
namespace Verif

/-- A call `AoSFunctor(p, q, newton3)`. -/
structure PairCall (P : Type) where
  p : P
  q : P
  newton3 : Bool
deriving DecidableEq

/-- A call `AoSFunctor(p, q, r, newton3)`. -/
structure TripleCall (P : Type) where
  p : P
  q : P
  r : P
  newton3 : Bool
deriving DecidableEq

/-- What `CellFunctor` reads of a cell: the particles and whether `getPossibleParticleOwnerships()` contains `owned`. -/
structure PCell (P : Type) where
  particles : List P
  hasOwned : Bool

/-- A loop with a `break` on the first element for which `stop` holds. -/
def untilBreak {X : Type} (stop : X → Bool) (l : List X) : List X := l.takeWhile (fun x => !stop x)

/-- `_particles` of `SortedCellView(cell, dir)`, SortedCellView.h:43-49: some arrangement of the particles with their
projections, sorted by projection. `std::sort` does not fix the order of equal projections. -/
def IsSortedView {P : Type} (pos : P → V3 Rat) (dir : V3 Rat) (cell : List P) (view : List (Rat × P)) : Prop :=
  view.Perm (cell.map fun p => ((pos p).dot dir, p)) ∧ view.Pairwise (fun a b => a.1 ≤ b.1)

/-- `std::abs(p1Projection - p2Projection) > _sortingCutoff`, CellFunctor.h:230, 256, 288, for projections on the
direction `dir` before normalisation (both sides multiplied by the length of `dir` and squared). -/
def farProj {P : Type} (dir : V3 Rat) (cutoff : Rat) (x y : Rat × P) : Bool :=
  cutoff * cutoff * dir.dot dir < (x.1 - y.1) * (x.1 - y.1)

/-- Nested loops over all pairs of a cell, the inner one starting behind the outer one, CellFunctor.h:225-235, 237-243. -/
def pairLoop {X : Type} (stop : X → X → Bool) : List X → List (X × X)
  | [] => []
  | x :: l => (untilBreak (stop x) l).map (fun y => (x, y)) ++ pairLoop stop l

/-- Nested loops over two cells, CellFunctor.h:254-261, 263-267. -/
def crossLoop {X : Type} (stop : X → X → Bool) (l₁ l₂ : List X) : List (X × X) :=
  l₁.flatMap fun x => (untilBreak (stop x) l₂).map fun y => (x, y)

/-- `interactParticles`, CellFunctor.h:209-220. -/
def interactParticles {P : Type} (isHalo : P → Bool) (newton3 : Bool) (p1 p2 : P) : List (PairCall P) :=
  if newton3 then [⟨p1, p2, true⟩]
  else (if !isHalo p1 then [⟨p1, p2, false⟩] else []) ++ (if !isHalo p2 then [⟨p2, p1, false⟩] else [])

/-- `processCellAoS`, CellFunctor.h:207-245; `view` is the sorted view of the cell, `dir` its direction (the cell length,
:223). -/
def processCellAoS {P : Type} (isHalo : P → Bool) (newton3 : Bool) (threshold : Nat) (cutoff : Rat) (dir : V3 Rat)
    (cell : List P) (view : List (Rat × P)) : List (PairCall P) :=
  if cell.length > threshold then
    (pairLoop (farProj dir cutoff) view).flatMap fun t => interactParticles isHalo newton3 t.1.2 t.2.2
  else
    (pairLoop (fun _ _ => false) cell).flatMap fun t => interactParticles isHalo newton3 t.1 t.2

/-- `processCell`, CellFunctor.h:141-166 (AoS). -/
def processCell {P : Type} (isHalo : P → Bool) (newton3 : Bool) (threshold : Nat) (cutoff : Rat) (dir : V3 Rat)
    (cell : PCell P) (view : List (Rat × P)) : List (PairCall P) :=
  if cell.particles.isEmpty then []
  else if !cell.hasOwned then []
  else processCellAoS isHalo newton3 threshold cutoff dir cell.particles view

/-- `AoSFunctor(p1, p2, true)` in `processCellPairAoSN3` (CellFunctor.h:259, 265), `interactParticlesNoN3` in
`processCellPairAoSNoN3` (:275-280). -/
def interactCross {P : Type} (newton3 bidirectional : Bool) (p1 p2 : P) : List (PairCall P) :=
  if newton3 then [⟨p1, p2, true⟩] else ⟨p1, p2, false⟩ :: (if bidirectional then [⟨p2, p1, false⟩] else [])

/-- `processCellPairAoSN3` and `processCellPairAoSNoN3`, CellFunctor.h:247-301. -/
def processCellPairAoS {P : Type} (newton3 bidirectional : Bool) (threshold : Nat) (cutoff : Rat) (dir : V3 Rat)
    (cell1 cell2 : List P) (view1 view2 : List (Rat × P)) : List (PairCall P) :=
  if cell1.length + cell2.length > threshold ∧ dir ≠ ⟨0, 0, 0⟩ then
    (crossLoop (farProj dir cutoff) view1 view2).flatMap fun t => interactCross newton3 bidirectional t.1.2 t.2.2
  else
    (crossLoop (fun _ _ => false) cell1 cell2).flatMap fun t => interactCross newton3 bidirectional t.1 t.2

/-- `processCellPair`, CellFunctor.h:168-204 (AoS). -/
def processCellPair {P : Type} (newton3 bidirectional : Bool) (threshold : Nat) (cutoff : Rat) (dir : V3 Rat)
    (cell1 cell2 : PCell P) (view1 view2 : List (Rat × P)) : List (PairCall P) :=
  if cell1.particles.isEmpty ∨ cell2.particles.isEmpty then []
  else if (cell1.hasOwned = false ∧ newton3 = false ∧ bidirectional = false) ∨
      (cell1.hasOwned = false ∧ cell2.hasOwned = false) then []
  else processCellPairAoS newton3 bidirectional threshold cutoff dir cell1.particles cell2.particles view1 view2

/-! ### Three-body version -/

/-- Two inner loops of a triple loop over one list, CellFunctor3B.h:315-329 and :333-341: `y` runs behind `x`, `z` behind
`y`; `stop2` breaks the loop over `y`, `stop3` the one over `z`. -/
def tripleInner {X : Type} (stop2 : X → X → Bool) (stop3 : X → X → X → Bool) (x : X) : List X → List (X × X × X)
  | [] => []
  | y :: l => if stop2 x y then [] else
      (untilBreak (stop3 x y) l).map (fun z => (x, y, z)) ++ tripleInner stop2 stop3 x l

/-- Triple loop over one cell, CellFunctor3B.h:312-330, 332-342. -/
def tripleLoop {X : Type} (stop2 : X → X → Bool) (stop3 : X → X → X → Bool) : List X → List (X × X × X)
  | [] => []
  | x :: l => tripleInner stop2 stop3 x l ++ tripleLoop stop2 stop3 l

/-- `p2` in cell 1 behind `p1`, `p3` in cell 2, CellFunctor3B.h:358-370, 392-398. -/
def innerOneTwo {X : Type} (stop2 : X → X → Bool) (stop3 : X → X → X → Bool) (x : X) (l l₂ : List X) : List (X × X × X) :=
  (untilBreak (stop2 x) l).flatMap fun y => (untilBreak (stop3 x y) l₂).map fun z => (x, y, z)

/-- The loops of `processCellPairAoSN3`/`NoN3`, CellFunctor3B.h:354-387, 390-408, 435-468, 471-489: for every particle of
cell 1 first the triplets with two particles of cell 1 (tagged `true`), then those with two particles of cell 2. -/
def pairTripleLoop {X : Type} (stop2 : X → X → Bool) (stop3 : X → X → X → Bool) (l₂ : List X) :
    List X → List ((X × X × X) × Bool)
  | [] => []
  | x :: l =>
    ((innerOneTwo stop2 stop3 x l l₂).map fun t => (t, true)) ++
    ((tripleInner stop2 stop3 x l₂).map fun t => (t, false)) ++ pairTripleLoop stop2 stop3 l₂ l

/-- `std::abs(p1 - p3) > cutoff or std::abs(p2 - p3) > cutoff`, CellFunctor3B.h:323-324, 364-365, 380-381. -/
def farProj3 {P : Type} (dir : V3 Rat) (cutoff : Rat) (x y z : Rat × P) : Bool :=
  farProj dir cutoff x z || farProj dir cutoff y z

/-- `interactParticles` of `processCellAoS`, CellFunctor3B.h:293-307. -/
def interactTriple {P : Type} (isHalo : P → Bool) (newton3 : Bool) (p1 p2 p3 : P) : List (TripleCall P) :=
  if newton3 then [⟨p1, p2, p3, true⟩]
  else (if !isHalo p1 then [⟨p1, p2, p3, false⟩] else []) ++ (if !isHalo p2 then [⟨p2, p1, p3, false⟩] else []) ++
    (if !isHalo p3 then [⟨p3, p1, p2, false⟩] else [])

/-- `processCellAoS`, CellFunctor3B.h:290-344. `dir` is `(1, 1, 1)` (:310). -/
def processCell3AoS {P : Type} (isHalo : P → Bool) (newton3 : Bool) (threshold : Nat) (cutoff : Rat)
    (cell : List P) (view : List (Rat × P)) : List (TripleCall P) :=
  if cell.length > threshold then
    (tripleLoop (farProj ⟨1, 1, 1⟩ cutoff) (farProj3 ⟨1, 1, 1⟩ cutoff) view).flatMap fun t =>
      interactTriple isHalo newton3 t.1.2 t.2.1.2 t.2.2.2
  else
    (tripleLoop (fun _ _ => false) (fun _ _ _ => false) cell).flatMap fun t =>
      interactTriple isHalo newton3 t.1 t.2.1 t.2.2

/-- `processCell`, CellFunctor3B.h:185-210 (AoS). -/
def processCell3 {P : Type} (isHalo : P → Bool) (newton3 : Bool) (threshold : Nat) (cutoff : Rat)
    (cell : PCell P) (view : List (Rat × P)) : List (TripleCall P) :=
  if cell.particles.isEmpty then []
  else if !cell.hasOwned then []
  else processCell3AoS isHalo newton3 threshold cutoff cell.particles view

/-- The functor calls of the two-cell version for one triplet: `AoSFunctor(p1, p2, p3, true)` (CellFunctor3B.h:368, 384) or
`interactParticles` (:416-428). -/
def interactPairTriple {P : Type} (newton3 bidirectional : Bool) (p1 p2 p3 : P) (p2FromCell1 : Bool) :
    List (TripleCall P) :=
  if newton3 then [⟨p1, p2, p3, true⟩]
  else ⟨p1, p2, p3, false⟩ :: (if p2FromCell1 || bidirectional then [⟨p2, p1, p3, false⟩] else []) ++
    (if bidirectional then [⟨p3, p1, p2, false⟩] else [])

/-- `processCellPairAoSN3` and `processCellPairAoSNoN3`, CellFunctor3B.h:346-491. -/
def processCellPair3AoS {P : Type} (newton3 bidirectional : Bool) (threshold : Nat) (cutoff : Rat) (dir : V3 Rat)
    (cell1 cell2 : List P) (view1 view2 : List (Rat × P)) : List (TripleCall P) :=
  if cell1.length + cell2.length > threshold ∧ dir ≠ ⟨0, 0, 0⟩ then
    (pairTripleLoop (farProj dir cutoff) (farProj3 dir cutoff) view2 view1).flatMap fun t =>
      interactPairTriple newton3 bidirectional t.1.1.2 t.1.2.1.2 t.1.2.2.2 t.2
  else
    (pairTripleLoop (fun _ _ => false) (fun _ _ _ => false) cell2 cell1).flatMap fun t =>
      interactPairTriple newton3 bidirectional t.1.1 t.1.2.1 t.1.2.2 t.2

/-- `processCellPair`, CellFunctor3B.h:212-248 (AoS). -/
def processCellPair3 {P : Type} (newton3 bidirectional : Bool) (threshold : Nat) (cutoff : Rat) (dir : V3 Rat)
    (cell1 cell2 : PCell P) (view1 view2 : List (Rat × P)) : List (TripleCall P) :=
  if cell1.particles.isEmpty ∨ cell2.particles.isEmpty then []
  else if (cell1.hasOwned = false ∧ newton3 = false ∧ bidirectional = false) ∨
      (cell1.hasOwned = false ∧ cell2.hasOwned = false) then []
  else processCellPair3AoS newton3 bidirectional threshold cutoff dir cell1.particles cell2.particles view1 view2

/-- Functor calls of `processCellTripleAoSN3`/`NoN3` for one triplet, CellFunctor3B.h:507, 526-532. -/
def interactCrossTriple {P : Type} (newton3 bidirectional : Bool) (p1 p2 p3 : P) : List (TripleCall P) :=
  if newton3 then [⟨p1, p2, p3, true⟩]
  else ⟨p1, p2, p3, false⟩ :: (if bidirectional then [⟨p2, p1, p3, false⟩, ⟨p3, p1, p2, false⟩] else [])

/-- `processCellTripleAoSN3`/`NoN3`, CellFunctor3B.h:493-559: only the first two cells are sorted. -/
def processCellTripleAoS {P : Type} (newton3 bidirectional : Bool) (threshold : Nat) (cutoff : Rat) (dir : V3 Rat)
    (cell1 cell2 cell3 : List P) (view1 view2 : List (Rat × P)) : List (TripleCall P) :=
  if cell1.length + cell2.length + cell3.length > threshold ∧ dir ≠ ⟨0, 0, 0⟩ then
    (crossLoop (farProj dir cutoff) view1 view2).flatMap fun t => cell3.flatMap fun p3 =>
      interactCrossTriple newton3 bidirectional t.1.2 t.2.2 p3
  else
    (crossLoop (fun _ _ => false) cell1 cell2).flatMap fun t => cell3.flatMap fun p3 =>
      interactCrossTriple newton3 bidirectional t.1 t.2 p3

/-- `processCellTriple`, CellFunctor3B.h:250-288 (AoS). -/
def processCellTriple {P : Type} (newton3 bidirectional : Bool) (threshold : Nat) (cutoff : Rat) (dir : V3 Rat)
    (cell1 cell2 cell3 : PCell P) (view1 view2 : List (Rat × P)) : List (TripleCall P) :=
  if cell1.particles.isEmpty ∨ cell2.particles.isEmpty ∨ cell3.particles.isEmpty then []
  else if (cell1.hasOwned = false ∧ newton3 = false ∧ bidirectional = false) ∨
      (cell1.hasOwned = false ∧ cell2.hasOwned = false ∧ cell3.hasOwned = false) then []
  else processCellTripleAoS newton3 bidirectional threshold cutoff dir cell1.particles cell2.particles cell3.particles
    view1 view2

end Verif
