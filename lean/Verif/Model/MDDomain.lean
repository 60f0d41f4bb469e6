import Verif.Model.Basic
import Verif.Model.Iterator
import Verif.Model.Ownership
import Mathlib.Algebra.Order.Group.Abs
import Mathlib.Data.Rat.Defs
import Mathlib.Algebra.Order.Ring.Rat
import Verif.Model.Outcome
/-!
The domain decomposition of md-flexible: /repo/examples/md-flexible/src/domainDecomposition/DomainTools.cpp and
RegularGridDecomposition.cpp. `double` is modelled by exact rationals. All ranks are modelled together: what belongs to a rank is a
function of its domain id. A message is a list of particles; the communication of a step is modelled by its result (every rank posts both
sends before it waits for anything, so no schedule can block, and messages between two ranks arrive in the order sent).
-/
namespace Verif

/-- A dimension index 0, 1, 2. -/
inductive Axis
  | x | y | z
deriving DecidableEq, Repr

/-- `v[d]`. -/
def V3.at {α : Type _} (v : V3 α) : Axis → α
  | .x => v.x
  | .y => v.y
  | .z => v.z

/-- `v[d] = a`. -/
def V3.put {α : Type _} (v : V3 α) (d : Axis) (a : α) : V3 α :=
  match d with
  | .x => { v with x := a }
  | .y => { v with y := a }
  | .z => { v with z := a }

/-! ### DomainTools -/

/-- `while (subdomainCount % 2 == 0)`, DomainTools.cpp:30-33: the factors two and what remains. Does not end for 0; a
communicator has at least one rank. -/
def rgTwos (n : Nat) : List Nat × Nat :=
  if _h : n ≠ 0 ∧ n % 2 = 0 then
    let (fs, m) := rgTwos (n / 2)
    (2 :: fs, m)
  else ([], n)
termination_by n
decreasing_by omega

/-- `while (subdomainCount % i == 0)`, DomainTools.cpp:39-42. -/
def rgDivideOut (i n : Nat) : List Nat × Nat :=
  if _h : n ≠ 0 ∧ 2 ≤ i ∧ n % i = 0 then
    let (fs, m) := rgDivideOut i (n / i)
    (i :: fs, m)
  else ([], n)
termination_by n
decreasing_by exact Nat.div_lt_self (by omega) (by omega)

/-- `for (int i = 3; i <= subdomainCount; i = i + 2)`, DomainTools.cpp:38-43. The bound shrinks as factors are divided out; `fuel`
bounds the number of rounds (`subdomainCount` of them are always enough). -/
def rgOdds : Nat → Nat → Nat → List Nat × Nat
  | 0, _, n => ([], n)
  | fuel + 1, i, n =>
    if i ≤ n then
      let (fs, m) := rgDivideOut i n
      let (gs, k) := rgOdds fuel (i + 2) m
      (fs ++ gs, k)
    else ([], n)

/-- `while (primeFactors.size() > numberOfDimensionsToSubdivide)`, DomainTools.cpp:53-58: sort, then multiply the second by the first.
`front()` of an empty list is undefined. `fuel` as above: every round shortens the list. -/
def rgMerge (dims : Nat) : Nat → List Nat → Outcome (List Nat)
  | 0, fs => .ok fs
  | fuel + 1, fs =>
    if fs.length > dims then
      match fs.mergeSort (fun a b => decide (a ≤ b)) with
      | a :: b :: rest => rgMerge dims fuel (b * a :: rest)
      | _ => .ub
    else .ok fs

/-- `for (int i = 0; i < 3; ++i)`, DomainTools.cpp:62-69. -/
def rgAssign (fs : List Nat) (sub : V3 Bool) : V3 Nat :=
  let take : List Nat → Bool → Nat × List Nat := fun fs s =>
    match fs with
    | f :: rest => if s then (f, rest) else (1, fs)
    | [] => (1, [])
  let (a, fs) := take fs sub.x
  let (b, fs) := take fs sub.y
  let (c, _) := take fs sub.z
  ⟨a, b, c⟩

/-- `DomainTools::generateDecomposition`, DomainTools.cpp:26-71. -/
def generateDecomposition (count : Nat) (sub : V3 Bool) : Outcome (V3 Nat) :=
  let (twos, rest) := rgTwos count
  let (odds, _) := rgOdds rest 3 rest
  let dims := sub.x.toNat + sub.y.toNat + sub.z.toNat
  (rgMerge dims (twos ++ odds).length (twos ++ odds)).bind fun fs => .ok (rgAssign fs sub)

/-- `DomainTools::getAccumulatedTail`, DomainTools.cpp:122-128: the product of the later entries. -/
def getAccumulatedTail (dec : V3 Nat) : Axis → Nat
  | .x => dec.y * dec.z
  | .y => dec.z
  | .z => 1

/-- `DomainTools::convertIdToIndex`, DomainTools.cpp:100-108. -/
def convertIdToIndex (id dec : V3 Nat) : Nat :=
  getAccumulatedTail dec .x * id.x + getAccumulatedTail dec .y * id.y + getAccumulatedTail dec .z * id.z

/-- `DomainTools::convertIndexToId`, DomainTools.cpp:110-120. -/
def convertIndexToId (index : Nat) (dec : V3 Nat) : V3 Nat :=
  let i0 := index / getAccumulatedTail dec .x
  let index := index - getAccumulatedTail dec .x * i0
  let i1 := index / getAccumulatedTail dec .y
  let index := index - getAccumulatedTail dec .y * i1
  ⟨i0, i1, index / getAccumulatedTail dec .z⟩

/-- `DomainTools::balanceAdjacentDomains`, DomainTools.cpp:73-98. A division by zero (no work on both sides) is not a number in the code,
then both comparisons are false and it is returned; here `none`. -/
def balanceAdjacentDomains (leftWork rightWork leftMin rightMax minWidth : Rat) : Option Rat :=
  if leftWork + rightWork = 0 then none
  else
    let balanced := (leftWork * leftMin + rightWork * rightMax) / (leftWork + rightWork)
    if balanced - leftMin < minWidth then some (leftMin + minWidth)
    else if rightMax - balanced < minWidth then some (rightMax - minWidth)
    else some balanced

/-- `autopas::utils::Math::isNearRel` with its default tolerance, /repo/src/autopas/utils/Math.cpp:32-37, Math.h:228. -/
def isNearRel (a b : Rat) : Bool := decide (|a - b| ≤ 1 / 1000000000 * max |a| |b|)

/-! ### RegularGridDecomposition -/

/-- `options::BoundaryTypeOption`, /repo/examples/md-flexible/src/options/BoundaryTypeOption.h:20-37. -/
inductive BoundaryType
  | periodic | reflective | none
deriving DecidableEq, Repr

/-- The members of RegularGridDecomposition (RegularGridDecomposition.h:146-270) of all ranks: what all ranks share, and the local
boxes by domain id. `skin` is `_skinWidthPerTimestep * _rebuildFrequency`. -/
structure RGD where
  gMin : V3 Rat
  gMax : V3 Rat
  dec : V3 Nat
  boundary : V3 BoundaryType
  cutoff : Rat
  skin : Rat
  lo : V3 Nat → V3 Rat
  hi : V3 Nat → V3 Rat

/-- `initializeLocalBox`, RegularGridDecomposition.cpp:128-135: `_localBoxMin` and `_localBoxMax`. -/
def rgLocalBox (gMin gMax : V3 Rat) (dec : V3 Nat) (id : V3 Nat) : V3 Rat × V3 Rat :=
  let width : Axis → Rat := fun d => (gMax.at d - gMin.at d) / (dec.at d : Rat)
  let lo : Axis → Rat := fun d => (id.at d : Rat) * width d + gMin.at d
  let hi : Axis → Rat := fun d => ((id.at d : Rat) + 1) * width d + gMin.at d
  (⟨lo .x, lo .y, lo .z⟩, ⟨hi .x, hi .y, hi .z⟩)

/-- The decomposition right after construction, RegularGridDecomposition.cpp:24-82. -/
def RGD.init (gMin gMax : V3 Rat) (dec : V3 Nat) (boundary : V3 BoundaryType) (cutoff skin : Rat) : RGD :=
  { gMin, gMax, dec, boundary, cutoff, skin, lo := fun r => (rgLocalBox gMin gMax dec r).1, hi := fun r => (rgLocalBox gMin gMax dec r).2 }

/-- `precedingNeighborId`, RegularGridDecomposition.cpp:140-141. -/
def RGD.left (D : RGD) (d : Axis) (r : V3 Nat) : V3 Nat := r.put d ((r.at d + D.dec.at d - 1) % D.dec.at d)

/-- `succeedingNeighborId`, RegularGridDecomposition.cpp:145-146. -/
def RGD.right (D : RGD) (d : Axis) (r : V3 Nat) : V3 Nat := r.put d ((r.at d + 1 + D.dec.at d) % D.dec.at d)

/-- `isNearRel(_localBoxMin[d], _globalBoxMin[d])`. -/
def RGD.atMin (D : RGD) (d : Axis) (r : V3 Nat) : Bool := isNearRel ((D.lo r).at d) (D.gMin.at d)

/-- `isNearRel(_localBoxMax[d], _globalBoxMax[d])`. -/
def RGD.atMax (D : RGD) (d : Axis) (r : V3 Nat) : Bool := isNearRel ((D.hi r).at d) (D.gMax.at d)

/-- A dimension is left out, RegularGridDecomposition.cpp:183 and 246-249. -/
def RGD.skip (D : RGD) (d : Axis) (r : V3 Nat) : Bool :=
  decide (D.boundary.at d ≠ .periodic) && D.atMin d r && D.atMax d r

/-- `setR` with one coordinate changed. -/
def Particle.shift (p : Particle) (d : Axis) (by_ : Rat) : Particle := { p with pos := p.pos.put d (p.pos.at d + by_) }

/-- `_globalBoxMax[d] - _globalBoxMin[d]`. -/
def RGD.length (D : RGD) (d : Axis) : Rat := D.gMax.at d - D.gMin.at d

/-- `sendAndReceiveParticlesLeftAndRight`, RegularGridDecomposition.cpp:459-478: what rank `r` finds in `receivedParticlesBuffer`. A rank that
is its own neighbour keeps what it would send. If both neighbours are the same rank, its first message is the one meant for its left
neighbour. -/
def RGD.exchange (D : RGD) (d : Axis) (toLeft toRight : V3 Nat → List Particle) (r : V3 Nat) : List Particle :=
  if D.left d r = r then toLeft r ++ toRight r
  else if D.left d r = D.right d r then toLeft (D.left d r) ++ toRight (D.left d r)
  else toRight (D.left d r) ++ toLeft (D.right d r)

/-- A particle is in the region of `collectHaloParticlesForLeftNeighbor`, RegularGridDecomposition.cpp:517-523. -/
def RGD.inLeftRegion (D : RGD) (d : Axis) (r : V3 Nat) (p : Particle) : Bool :=
  inBoxB p.pos (D.lo r) ((D.hi r).put d ((D.lo r).at d + D.cutoff + D.skin))

/-- A particle is in the region of `collectHaloParticlesForRightNeighbor`, RegularGridDecomposition.cpp:535-541. -/
def RGD.inRightRegion (D : RGD) (d : Axis) (r : V3 Nat) (p : Particle) : Bool :=
  inBoxB p.pos ((D.lo r).put d ((D.hi r).at d - D.cutoff - D.skin)) (D.hi r)

/-- A halo particle already received is sent on to the left, RegularGridDecomposition.cpp:207. -/
def RGD.haloLeft (D : RGD) (d : Axis) (r : V3 Nat) (p : Particle) : Bool :=
  decide (p.pos.at d ≥ (D.lo r).at d - D.skin) && decide (p.pos.at d < (D.lo r).at d + D.cutoff + D.skin)

/-- A halo particle already received is sent on to the right (`else if`), RegularGridDecomposition.cpp:216. -/
def RGD.haloRight (D : RGD) (d : Axis) (r : V3 Nat) (p : Particle) : Bool :=
  !D.haloLeft d r p && (decide (p.pos.at d ≥ (D.hi r).at d - D.cutoff - D.skin) && decide (p.pos.at d < (D.hi r).at d + D.skin))

/-- `_particlesForLeftNeighbor`, RegularGridDecomposition.cpp:193-195, 205-215 and 480-528. -/
def RGD.toLeft (D : RGD) (d : Axis) (own halo : V3 Nat → List Particle) (r : V3 Nat) : List Particle :=
  let wrap : Particle → Particle := fun p => if D.atMin d r then p.shift d (D.length d) else p
  (if D.boundary.at d = .periodic ∨ D.atMin d r = false then ((own r).filter (D.inLeftRegion d r)).map wrap else []) ++
    ((halo r).filter (D.haloLeft d r)).map wrap

/-- `_particlesForRightNeighbor`, RegularGridDecomposition.cpp:196-198, 216-225 and 480-510, 530-546. -/
def RGD.toRight (D : RGD) (d : Axis) (own halo : V3 Nat → List Particle) (r : V3 Nat) : List Particle :=
  let wrap : Particle → Particle := fun p => if D.atMax d r then p.shift d (-D.length d) else p
  (if D.boundary.at d = .periodic ∨ D.atMax d r = false then ((own r).filter (D.inRightRegion d r)).map wrap else []) ++
    ((halo r).filter (D.haloRight d r)).map wrap

/-- One round of the loop over the dimensions, RegularGridDecomposition.cpp:176-235. -/
def RGD.haloStep (D : RGD) (own : V3 Nat → List Particle) (halo : V3 Nat → List Particle) (d : Axis) : V3 Nat → List Particle :=
  fun r => if D.skip d r then halo r else halo r ++ D.exchange d (D.toLeft d own halo) (D.toRight d own halo) r

/-- `exchangeHaloParticles`, RegularGridDecomposition.cpp:159-237: the halo particles every rank hands to AutoPas. `own r` are the owned
particles of rank `r`. -/
def RGD.exchangeHalo (D : RGD) (own : V3 Nat → List Particle) : V3 Nat → List Particle :=
  [Axis.x, Axis.y, Axis.z].foldl (D.haloStep own) (fun _ => [])

end Verif
