import Verif.Model.LogicParticles
import Verif.Model.DirectSum
import Verif.Model.OctreeStorage
/-!
`forEach`, `reduce`, `forEachInRegion` and `reduceInRegion`: /repo/src/autopas/AutoPasDecl.h:282-540 and the functions of the same names
of the containers. A lambda of `forEach` gets a reference to a particle and may change it; it is a function on particles here. A lambda of
`reduce` gets a particle and a reference to the result; the particles are taken as unchanged there.
-/
namespace Verif

/-- The two checks of `forEachImpl` and `reduceImpl`, /repo/src/autopas/cells/FullParticleCell.h:289-290. `none` as behaviour: the variant
without an ownership check; `none` as region: the variant without a region check. `contains` may throw. -/
def cellSelects (behavior : Option Nat) (region : Option (V3 Rat × V3 Rat)) (p : Particle) : Outcome Bool :=
  let inRegion := match region with
    | none => true
    | some r => inBoxB p.pos r.1 r.2
  match behavior with
  | none => .ok inRegion
  | some b =>
    match ibContains b p.own with
    | none => .throws
    | some c => .ok (c && inRegion)

/-- `forEachImpl`, FullParticleCell.h:284-295. -/
def cellForEach (behavior : Option Nat) (region : Option (V3 Rat × V3 Rat)) (f : Particle → Particle) :
    List Particle → Outcome (List Particle)
  | [] => .ok []
  | p :: l => (cellSelects behavior region p).bind fun sel =>
      (cellForEach behavior region f l).bind fun l' => .ok ((if sel then f p else p) :: l')

/-- `reduceImpl`, FullParticleCell.h:297-308. -/
def cellReduce {A : Type} (behavior : Option Nat) (region : Option (V3 Rat × V3 Rat)) (g : A → Particle → A) :
    A → List Particle → Outcome A
  | a, [] => .ok a
  | a, p :: l => (cellSelects behavior region p).bind fun sel => cellReduce behavior region g (if sel then g a p else a) l

/-- A loop over cells that calls their `forEach`. -/
def forEachCells (behavior : Option Nat) (region : Option (V3 Rat × V3 Rat)) (f : Particle → Particle) :
    List Nat → List (List Particle) → Outcome (List (List Particle))
  | [], cells => .ok cells
  | c :: cs, cells => (cellForEach behavior region f (cells.getD c [])).bind fun l =>
      forEachCells behavior region f cs (cells.set c l)

/-- A loop over cells that calls their `reduce`. -/
def reduceCells {A : Type} (behavior : Option Nat) (region : Option (V3 Rat × V3 Rat)) (g : A → Particle → A)
    (cells : List (List Particle)) : List Nat → A → Outcome A
  | [], a => .ok a
  | c :: cs, a => (cellReduce behavior region g a (cells.getD c [])).bind fun a' => reduceCells behavior region g cells cs a'

/-! ### LinkedCells -/

/-- `ignoreCellForIteration`, /repo/src/autopas/containers/CellBorderAndFlagManager.h:49-60, with `cellCanContainOwnedParticles` and
`cellCanContainHaloParticles` of CellBlock3D.h:68-86. -/
def lcIgnoresCell (b : CellBlock) (c behavior : Nat) : Bool :=
  if behavior &&& ibHalo ≠ 0 ∧ b.cellCanContainHalo c = true then false
  else if behavior &&& ibOwned ≠ 0 ∧ b.cellCanContainHalo c = false then false
  else if behavior &&& ibDummy ≠ 0 then false
  else true

/-- The cells looked at by `forEach` and `reduce`, and the behaviour they check, LinkedCells.h:325-337, :349-360. -/
def lcWholeCells (b : CellBlock) (behavior n : Nat) : Option Nat × List Nat :=
  if behavior = ibOwnedOrHaloOrDummy then (none, List.range n)
  else (some behavior, (List.range n).filter fun c => !lcIgnoresCell b c behavior)

/-- `LinkedCells::forEach`, /repo/src/autopas/containers/linkedCells/LinkedCells.h:325-337. -/
def lcForEach (b : CellBlock) (behavior : Nat) (f : Particle → Particle) (cells : List (List Particle)) : Outcome (List (List Particle)) :=
  forEachCells (lcWholeCells b behavior cells.length).1 none f (lcWholeCells b behavior cells.length).2 cells

/-- `LinkedCells::reduce`, LinkedCells.h:349-360. -/
def lcReduce {A : Type} (b : CellBlock) (behavior : Nat) (g : A → Particle → A) (cells : List (List Particle)) (a : A) : Outcome A :=
  reduceCells (lcWholeCells b behavior cells.length).1 none g cells (lcWholeCells b behavior cells.length).2 a

/-- `numCellsOfInterest`, LinkedCells.h:391-392: arithmetic of `size_t`. -/
def lcNumCellsOfInterest (start stop : V3 Nat) : Nat :=
  ((((stop.x : Int) - start.x + 1) * ((stop.y : Int) - start.y + 1) * ((stop.z : Int) - start.z + 1)) % 2 ^ 64).toNat

/-- `cellsOfInterest`, LinkedCells.h:388-405: `reserve` throws if the vector of `size_t` would be longer than `max_size()`. -/
def lcCellsOfInterest (b : CellBlock) (skin : Rat) (lo hi : V3 Rat) : Outcome (List Nat) :=
  let start := b.indexOfPosition id (lo.addScalar (-skin))
  let stop := b.indexOfPosition id (hi.addScalar skin)
  if (2 ^ 63 - 1) / 8 < lcNumCellsOfInterest start stop then .throws
  else .ok ((forUp start.z (stop.z + 1) 1).flatMap fun z => (forUp start.y (stop.y + 1) 1).flatMap fun y =>
    (forUp start.x (stop.x + 1) 1).map fun x => threeToOneD ⟨x, y, z⟩ b.dims)

/-- `LinkedCells::forEachInRegion`, LinkedCells.h:384-412; `skin` is `getVerletSkin()`. -/
def lcForEachInRegion (b : CellBlock) (skin : Rat) (behavior : Nat) (lo hi : V3 Rat) (f : Particle → Particle)
    (cells : List (List Particle)) : Outcome (List (List Particle)) :=
  (lcCellsOfInterest b skin lo hi).bind fun cs =>
    forEachCells (some behavior) (some (lo, hi)) f (cs.filter fun c => !lcIgnoresCell b c behavior) cells

/-- `LinkedCells::reduceInRegion`, LinkedCells.h:424-451. -/
def lcReduceInRegion {A : Type} (b : CellBlock) (skin : Rat) (behavior : Nat) (lo hi : V3 Rat) (g : A → Particle → A)
    (cells : List (List Particle)) (a : A) : Outcome A :=
  (lcCellsOfInterest b skin lo hi).bind fun cs =>
    reduceCells (some behavior) (some (lo, hi)) g cells (cs.filter fun c => !lcIgnoresCell b c behavior) a

/-! ### DirectSum -/

/-- The cells looked at, /repo/src/autopas/containers/directSum/DirectSum.h:215-222, :234-241, :266-273, :285-292. -/
def dsWholeCells (behavior n : Nat) : List Nat :=
  (if behavior &&& ibOwned ≠ 0 then [0] else []) ++ (if behavior &&& ibHalo ≠ 0 then (List.range n).drop 1 else [])

/-- `DirectSum::forEach` (`region = none`, no ownership check) and `forEachInRegion`, DirectSum.h:213-227, :263-279. The sanity check comes
last. -/
def dsForEach (behavior : Nat) (region : Option (V3 Rat × V3 Rat)) (f : Particle → Particle) (cells : List (List Particle)) :
    Outcome (List (List Particle)) :=
  (forEachCells (region.map fun _ => behavior) region f (dsWholeCells behavior cells.length) cells).bind fun cells' =>
    if behavior &&& ibOwnedOrHalo = 0 then .throws else .ok cells'

/-- `DirectSum::reduce` and `reduceInRegion`, DirectSum.h:232-246, :284-299. -/
def dsReduce {A : Type} (behavior : Nat) (region : Option (V3 Rat × V3 Rat)) (g : A → Particle → A) (cells : List (List Particle)) (a : A) :
    Outcome A :=
  (reduceCells (region.map fun _ => behavior) region g cells (dsWholeCells behavior cells.length) a).bind fun a' =>
    if behavior &&& ibOwnedOrHalo = 0 then .throws else .ok a'

/-- What `updateContainer(true)` does to the stored particles, DirectSum.h:165-167, Octree.h:105-107:
`collectParticlesAndMarkNonOwnedAsDummy`, /repo/src/autopas/containers/LeavingParticleCollector.h:84-118, marks the halo particles and the
leaving particles in the six volumes as dummies. All particles stay where they are stored. (The region iterators of these two containers
are taken as exact, C69 and C72.) -/
def markLeaving (c : LHParams) (p : Particle) : Particle :=
  if (haloVolumes c).any fun v => inBoxB p.pos v.1 v.2 then (markBody c [] p).getD p else p

/-! ### Octree -/

open Octree in
/-- `reduce` of the nodes, /repo/src/autopas/containers/octree/OctreeInnerNode.h:247-252, :287-296 (a leaf is a FullParticleCell). With a
region, a child is looked at only if its box and the region enclose a positive volume (:291-292; OctreeNodeInterface.h:196-214). -/
def otReduceNode {A : Type} (region : Option (V3 Rat × V3 Rat)) (g : A → Particle → A) : OTree Particle → Box → A → Outcome A
  | .leaf ps, _, a => cellReduce (region.map fun _ => ibOwnedOrHalo) region g a ps
  | .inner c, b, a => vertices.foldl (fun acc o => acc.bind fun a' =>
      if (match region with
        | none => true
        | some r => enclosesVolume (childBox b o) ⟨r.1, r.2⟩) then otReduceNode region g (c o) (childBox b o) a' else .ok a') (.ok a)

open Octree in
/-- `Octree::reduce` and `reduceInRegion`, /repo/src/autopas/containers/octree/Octree.h:445-450, :469-478. -/
def otReduce {A : Type} (cfg : OTCfg) (s : OTState) (behavior : Nat) (region : Option (V3 Rat × V3 Rat)) (g : A → Particle → A) (a : A) :
    Outcome A :=
  ((if behavior &&& ibOwned ≠ 0 then otReduceNode region g s.owned cfg.box a else .ok a).bind fun a' =>
    (if behavior &&& ibHalo ≠ 0 then otReduceNode region g s.halo cfg.haloBox a' else .ok a')).bind fun a'' =>
    if behavior &&& ibOwnedOrHalo = 0 then .throws else .ok a''

/-! ### AutoPas -/

/-- `AutoPas::forEach`, /repo/src/autopas/AutoPasDecl.h:289-301: only the container is looked at. -/
def LHState.forEach (c : LHParams) (s : LHState) (behavior : Nat) (f : Particle → Particle) : Outcome LHState :=
  (lcForEach c.block behavior f s.cells).bind fun cells => .ok { s with cells := cells }

/-- `AutoPas::reduce`, AutoPasDecl.h:337-350. -/
def LHState.reduce {A : Type} (c : LHParams) (s : LHState) (behavior : Nat) (g : A → Particle → A) (a : A) : Outcome A :=
  lcReduce c.block behavior g s.cells a

end Verif
