import Verif.Model.Basic
/-!
# Files that show octrees and the domains of ranks

/repo/src/autopas/utils/logging/OctreeLogger.h and the points of a domain in /repo/examples/md-flexible/src/ParallelVtkWriter.cpp:264-290.
Files are lists of values or tokens: numbers are not printed, white space and the names in JSON objects are left out. The leaves and their neighbours are given as lists.
-/
namespace Verif

variable {K : Type}

/-- The points of a box, OctreeLogger.h:88-95. -/
def octreePoints (box : V3 K × V3 K) : List (V3 K) :=
  let min := box.1
  let max := box.2
  [⟨min.x, min.y, min.z⟩, ⟨max.x, min.y, min.z⟩, ⟨max.x, max.y, min.z⟩, ⟨min.x, max.y, min.z⟩,
    ⟨min.x, min.y, max.z⟩, ⟨max.x, min.y, max.z⟩, ⟨max.x, max.y, max.z⟩, ⟨min.x, max.y, max.z⟩]

/-- A file in the legacy format of vtk: the declared numbers of points, of cells and of entries of the cell list, the points, the cells (with the number of their points) and their types. -/
structure VtkFile (K : Type) where
  numPoints : Nat
  points : List (V3 K)
  numCells : Nat
  cellListSize : Nat
  cells : List (Nat × List Nat)
  numTypes : Nat
  types : List Nat

/-- `logTree`, OctreeLogger.h:48-125, for the boxes of the leaves. -/
def logTree (boxes : List (V3 K × V3 K)) : VtkFile K :=
  let boxCount := boxes.length
  let pointCount := 8 * boxCount
  { numPoints := pointCount
    points := boxes.flatMap octreePoints
    numCells := boxCount
    cellListSize := pointCount + boxCount
    cells := (List.range boxCount).map fun boxIndex => (8, (List.range 8).map fun pointIndex => 8 * boxIndex + pointIndex)
    numTypes := boxCount
    types := (List.range boxes.length).map fun _ => 12 }

/-- The file for the domain of a rank, ParallelVtkWriter.cpp:239, 264-290. The XML format has no sizes of lists; the number of points of the cell is its offset. -/
def domainFile (lo hi : V3 K) : VtkFile K where
  numPoints := 8
  points := [⟨lo.x, lo.y, lo.z⟩, ⟨lo.x, lo.y, hi.z⟩, ⟨lo.x, hi.y, lo.z⟩, ⟨lo.x, hi.y, hi.z⟩,
    ⟨hi.x, lo.y, lo.z⟩, ⟨hi.x, lo.y, hi.z⟩, ⟨hi.x, hi.y, lo.z⟩, ⟨hi.x, hi.y, hi.z⟩]
  numCells := 1
  cellListSize := 9
  cells := [(8, [0, 1, 2, 3, 4, 5, 6, 7])]
  numTypes := 1
  types := [11]

/-- Tokens of a JSON list. -/
inductive JTok (α : Type)
  | open
  | close
  | comma
  | item (a : α)
  deriving DecidableEq

variable {α : Type}

/-- The inner loop of `particlesToJSON`, OctreeLogger.h:281-291, for the remaining particles of a leaf; `more`: it is not the last leaf. -/
def particleTokens (more : Bool) : List α → List (JTok α)
  | [] => []
  | p :: ps => .item p :: ((if !ps.isEmpty || more then [.comma] else []) ++ particleTokens more ps)

/-- The outer loop, OctreeLogger.h:277-292, for the remaining leaves. -/
def leafTokens : List (List α) → List (JTok α)
  | [] => []
  | leaf :: rest => particleTokens (!rest.isEmpty) leaf ++ leafTokens rest

/-- `particlesToJSON`, OctreeLogger.h:270-299. -/
def particlesToJSON (leaves : List (List α)) : List (JTok α) := [.open] ++ leafTokens leaves ++ [.close]

/-- The loops with the flag `first`, e.g. OctreeLogger.h:168-182: elements of one group. The result has the flag behind the group. -/
def groupTokens (first : Bool) : List α → List (JTok α) × Bool
  | [] => ([], first)
  | a :: as => let r := groupTokens false as
    ((if !first then [.comma] else []) ++ [.item a] ++ r.1, r.2)

/-- All groups: the directions with their neighbours. -/
def groupsTokens (first : Bool) : List (List α) → List (JTok α)
  | [] => []
  | g :: gs => let r := groupTokens first g
    r.1 ++ groupsTokens r.2 gs

/-- One of the six lists of an object, e.g. OctreeLogger.h:165-183. -/
def neighborTokens (groups : List (List α)) : List (JTok α) := [.open] ++ groupsTokens true groups ++ [.close]

/-- The loop over the leaves, OctreeLogger.h:147-256: the objects and the commas between them. -/
def objectTokens (leaves : List α) : List (JTok α) :=
  [.open] ++ (leaves.zipIdx.flatMap fun l => [.item l.1] ++ (if l.2 < leaves.length - 1 then [.comma] else [])) ++ [.close]

end Verif
