/-!
Faces, edges and vertices of a box and the tables of Samet's neighbour search,
/repo/src/autopas/containers/octree/OctreeDirection.h. The value 0 ("omega/unknown") of the three enums is `none`.
-/
namespace Verif.Octree

/-- `enum Face`, OctreeDirection.h:20-28. -/
inductive Face
  | L | R | D | U | B | F
deriving DecidableEq, Repr

/-- `enum Edge`, OctreeDirection.h:60-74. -/
inductive Edge
  | LD | LU | LB | LF | RD | RU | RB | RF | DB | DF | UB | UF
deriving DecidableEq, Repr

/-- `enum Vertex`, OctreeDirection.h:79-89; also `Octant` (:133). -/
inductive Vertex
  | LDB | LDF | LUB | LUF | RDB | RDF | RUB | RUF
deriving DecidableEq, Repr

/-- The values of `Any` (OctreeDirection.h:15) that pass `isFace`, `isEdge` or `isVertex` (:142-168). The numbers of different faces, edges
and vertices are different (`buildEdge`, `buildVertex`, :38-55). -/
inductive Any
  | face (f : Face)
  | edge (e : Edge)
  | vertex (v : Vertex)
deriving DecidableEq, Repr

open Face Edge Vertex

/-- `Tables::faces`, OctreeDirection.h:98. -/
def faces : List Face := [L, R, D, U, B, F]

/-- `Tables::edges`, OctreeDirection.h:103. -/
def edges : List Edge := [LD, LU, LB, LF, RD, RU, RB, RF, DB, DF, UB, UF]

/-- `Tables::vertices`, OctreeDirection.h:108. -/
def vertices : List Vertex := [LDB, LDF, LUB, LUF, RDB, RDF, RUB, RUF]

/-- `vertexToIndex`, OctreeDirection.h:117-128. -/
def vertexToIndex (v : Vertex) : Nat := vertices.idxOf v

/-- `createADJTable`, OctreeDirection.h:180-209. -/
def adjTable : Any → List Bool
  | .face L => [true, true, true, true, false, false, false, false]
  | .face R => [false, false, false, false, true, true, true, true]
  | .face D => [true, true, false, false, true, true, false, false]
  | .face U => [false, false, true, true, false, false, true, true]
  | .face B => [true, false, true, false, true, false, true, false]
  | .face F => [false, true, false, true, false, true, false, true]
  | .edge LD => [true, true, false, false, false, false, false, false]
  | .edge LU => [false, false, true, true, false, false, false, false]
  | .edge LB => [true, false, true, false, false, false, false, false]
  | .edge LF => [false, true, false, true, false, false, false, false]
  | .edge RD => [false, false, false, false, true, true, false, false]
  | .edge RU => [false, false, false, false, false, false, true, true]
  | .edge RB => [false, false, false, false, true, false, true, false]
  | .edge RF => [false, false, false, false, false, true, false, true]
  | .edge DB => [true, false, false, false, true, false, false, false]
  | .edge DF => [false, true, false, false, false, true, false, false]
  | .edge UB => [false, false, true, false, false, false, true, false]
  | .edge UF => [false, false, false, true, false, false, false, true]
  | .vertex LDB => [true, false, false, false, false, false, false, false]
  | .vertex LDF => [false, true, false, false, false, false, false, false]
  | .vertex LUB => [false, false, true, false, false, false, false, false]
  | .vertex LUF => [false, false, false, true, false, false, false, false]
  | .vertex RDB => [false, false, false, false, true, false, false, false]
  | .vertex RDF => [false, false, false, false, false, true, false, false]
  | .vertex RUB => [false, false, false, false, false, false, true, false]
  | .vertex RUF => [false, false, false, false, false, false, false, true]

/-- `createREFLECTTable`, OctreeDirection.h:216-245. -/
def reflectTable : Any → List Vertex
  | .face L => [RDB, RDF, RUB, RUF, LDB, LDF, LUB, LUF]
  | .face R => [RDB, RDF, RUB, RUF, LDB, LDF, LUB, LUF]
  | .face D => [LUB, LUF, LDB, LDF, RUB, RUF, RDB, RDF]
  | .face U => [LUB, LUF, LDB, LDF, RUB, RUF, RDB, RDF]
  | .face B => [LDF, LDB, LUF, LUB, RDF, RDB, RUF, RUB]
  | .face F => [LDF, LDB, LUF, LUB, RDF, RDB, RUF, RUB]
  | .edge LD => [RUB, RUF, RDB, RDF, LUB, LUF, LDB, LDF]
  | .edge LU => [RUB, RUF, RDB, RDF, LUB, LUF, LDB, LDF]
  | .edge LB => [RDF, RDB, RUF, RUB, LDF, LDB, LUF, LUB]
  | .edge LF => [RDF, RDB, RUF, RUB, LDF, LDB, LUF, LUB]
  | .edge RD => [RUB, RUF, RDB, RDF, LUB, LUF, LDB, LDF]
  | .edge RU => [RUB, RUF, RDB, RDF, LUB, LUF, LDB, LDF]
  | .edge RB => [RDF, RDB, RUF, RUB, LDF, LDB, LUF, LUB]
  | .edge RF => [RDF, RDB, RUF, RUB, LDF, LDB, LUF, LUB]
  | .edge DB => [LUF, LUB, LDF, LDB, RUF, RUB, RDF, RDB]
  | .edge DF => [LUF, LUB, LDF, LDB, RUF, RUB, RDF, RDB]
  | .edge UB => [LUF, LUB, LDF, LDB, RUF, RUB, RDF, RDB]
  | .edge UF => [LUF, LUB, LDF, LDB, RUF, RUB, RDF, RDB]
  | .vertex LDB => [RUF, RUB, RDF, RDB, LUF, LUB, LDF, LDB]
  | .vertex LDF => [RUF, RUB, RDF, RDB, LUF, LUB, LDF, LDB]
  | .vertex LUB => [RUF, RUB, RDF, RDB, LUF, LUB, LDF, LDB]
  | .vertex LUF => [RUF, RUB, RDF, RDB, LUF, LUB, LDF, LDB]
  | .vertex RDB => [RUF, RUB, RDF, RDB, LUF, LUB, LDF, LDB]
  | .vertex RDF => [RUF, RUB, RDF, RDB, LUF, LUB, LDF, LDB]
  | .vertex RUB => [RUF, RUB, RDF, RDB, LUF, LUB, LDF, LDB]
  | .vertex RUF => [RUF, RUB, RDF, RDB, LUF, LUB, LDF, LDB]

/-- `O`, the unknown face. -/
local notation "O" => (none : Option Face)

/-- `createCOMMONFACETable`, OctreeDirection.h:252-275 (rows of faces stay zero, i.e. `O`). -/
def commonFaceTable : Any → List (Option Face)
  | .face _ => [O, O, O, O, O, O, O, O]
  | .edge LD => [O, O, L, L, D, D, O, O]
  | .edge LU => [L, L, O, O, O, O, U, U]
  | .edge LB => [O, L, O, L, B, O, B, O]
  | .edge LF => [L, O, L, O, O, F, O, F]
  | .edge RD => [D, D, O, O, O, O, R, R]
  | .edge RU => [O, O, U, U, R, R, O, O]
  | .edge RB => [B, O, B, O, O, R, O, R]
  | .edge RF => [O, F, O, F, R, O, R, O]
  | .edge DB => [O, D, B, O, O, D, B, O]
  | .edge DF => [D, O, O, F, D, O, O, F]
  | .edge UB => [B, O, O, U, B, O, O, U]
  | .edge UF => [O, F, U, O, O, F, U, O]
  | .vertex LDB => [O, O, O, L, O, D, B, O]
  | .vertex LDF => [O, O, L, O, D, O, O, F]
  | .vertex LUB => [O, L, O, O, B, O, O, U]
  | .vertex LUF => [L, O, O, O, O, F, U, O]
  | .vertex RDB => [O, D, B, O, O, O, O, R]
  | .vertex RDF => [D, O, O, F, O, O, R, O]
  | .vertex RUB => [B, O, O, U, O, R, O, O]
  | .vertex RUF => [O, F, U, O, R, O, O, O]

/-- `OO`, the unknown edge. -/
local notation "OO" => (none : Option Edge)

/-- `createCOMMONEDGETable`, OctreeDirection.h:282-293. -/
def commonEdgeTable : Vertex → List (Option Edge)
  | LDB => [OO, LD, LB, OO, DB, OO, OO, OO]
  | LDF => [LD, OO, OO, LF, OO, DF, OO, OO]
  | LUB => [LB, OO, OO, LU, OO, OO, UB, OO]
  | LUF => [OO, LF, LU, OO, OO, OO, OO, UF]
  | RDB => [DB, OO, OO, OO, OO, RD, RB, OO]
  | RDF => [OO, DF, OO, OO, RD, OO, OO, RF]
  | RUB => [OO, OO, UB, OO, RB, OO, OO, RU]
  | RUF => [OO, OO, OO, UF, OO, RF, RU, OO]

/-- `createOppositeDirectionTable`, OctreeDirection.h:300-329; `getOppositeDirection`, :504-518. -/
def oppositeDirection : Any → Any
  | .face L => .face R
  | .face R => .face L
  | .face D => .face U
  | .face U => .face D
  | .face B => .face F
  | .face F => .face B
  | .edge LD => .edge RU
  | .edge LU => .edge RD
  | .edge LB => .edge RF
  | .edge LF => .edge RB
  | .edge RD => .edge LU
  | .edge RU => .edge LD
  | .edge RB => .edge LF
  | .edge RF => .edge LB
  | .edge DB => .edge UF
  | .edge DF => .edge UB
  | .edge UB => .edge DF
  | .edge UF => .edge DB
  | .vertex LDB => .vertex RUF
  | .vertex LDF => .vertex RUB
  | .vertex LUB => .vertex RDF
  | .vertex LUF => .vertex RDB
  | .vertex RDB => .vertex LUF
  | .vertex RDF => .vertex LUB
  | .vertex RUB => .vertex LDF
  | .vertex RUF => .vertex LDB

/-- `createAllowedDirectionsTable`, OctreeDirection.h:336-365, without the trailing `OOO`; `getAllowedDirections`, :526-550. -/
def allowedDirections : Any → List Vertex
  | .face L => [LDB, LDF, LUB, LUF]
  | .face R => [RDB, RDF, RUB, RUF]
  | .face D => [LDB, LDF, RDB, RDF]
  | .face U => [LUB, LUF, RUB, RUF]
  | .face B => [LDB, LUB, RDB, RUB]
  | .face F => [LDF, LUF, RDF, RUF]
  | .edge LD => [LDB, LDF]
  | .edge LU => [LUB, LUF]
  | .edge LB => [LDB, LUB]
  | .edge LF => [LDF, LUF]
  | .edge RD => [RDB, RDF]
  | .edge RU => [RUB, RUF]
  | .edge RB => [RDB, RUB]
  | .edge RF => [RDF, RUF]
  | .edge DB => [LDB, RDB]
  | .edge DF => [LDF, RDF]
  | .edge UB => [LUB, RUB]
  | .edge UF => [LUF, RUF]
  | .vertex LDB => [LDB]
  | .vertex LDF => [LDF]
  | .vertex LUB => [LUB]
  | .vertex LUF => [LUF]
  | .vertex RDB => [RDB]
  | .vertex RDF => [RDF]
  | .vertex RUB => [RUB]
  | .vertex RUF => [RUF]

/-- `ADJ`, OctreeDirection.h:406-419. -/
def ADJ (direction : Any) (octant : Vertex) : Bool := (adjTable direction).getD (vertexToIndex octant) false

/-- `REFLECT`, OctreeDirection.h:430-443. -/
def REFLECT (direction : Any) (octant : Vertex) : Vertex := (reflectTable direction).getD (vertexToIndex octant) octant

/-- `COMMON_FACE`, OctreeDirection.h:454-467. -/
def COMMON_FACE (direction : Any) (octant : Vertex) : Option Face := (commonFaceTable direction).getD (vertexToIndex octant) none

/-- `COMMON_EDGE`, OctreeDirection.h:478-496. -/
def COMMON_EDGE (direction : Vertex) (octant : Vertex) : Option Edge := (commonEdgeTable direction).getD (vertexToIndex octant) none

end Verif.Octree
