import Verif.Model.LJFunctor
import Verif.Model.Quaternion
/-!
# /repo/applicationLibrary/molecularDynamics/molecularDynamicsLibrary/LJMultisiteFunctor.h

The functor for rigid molecules with several Lennard-Jones sites, with mixing and with `calculateGlobals`. (Without mixing the functor cannot be used: its
member `_sitePositionsLJ` is `const` and empty, and the SoA kernels dereference `_PPLibrary`, which is null.)

Arithmetic as in `Model/Num.lean`. Site-wise `std::vector`s are filled by writing entry after entry (into reserved memory); they are lists here.
-/
namespace Verif

/-- What the functor reads of a molecule, LJMultisiteFunctor.h:641-651. -/
structure MSMol (K : Type) where
  pos : V3 K
  q : Q4 K
  type : Nat
  own : Ownership
deriving DecidableEq

/-- `_cutoffSquared`, the template parameter `applyShift`, and what is read of the particle properties library: types and positions of the sites of each type of
molecules, mixing data of each pair of types of sites. -/
structure MSCfg (K : Type) where
  applyShift : Bool
  cutoffSquared : K
  siteIds : Nat → List Nat
  sitePos : Nat → List (V3 K)
  mixEpsilon24 : Nat → Nat → K
  mixSigmaSquared : Nat → Nat → K
  mixShift6 : Nat → Nat → K

/-- Forces and torques of all molecules, and the sums of the thread (`_aosThreadData`). -/
structure MSState (P K : Type) where
  force : P → V3 (Num K)
  torque : P → V3 (Num K)
  globals : LJGlobals K

section
variable {K : Type} [Field K] [LinearOrder K]

/-- `getNumSites(type)`; `addMolType` sets it to the number of site ids. -/
def MSCfg.numSites (c : MSCfg K) (type : Nat) : Nat := (c.siteIds type).length

/-- `rotateVectorOfPositions(quaternion, getSitePositions(type))`. -/
def MSCfg.rotated (c : MSCfg K) (m : MSMol K) : List (V3 K) := rotateVectorOfPositions m.q (c.sitePos m.type)

/-- What two sites at `displacement` do to each other: `force`, `virial` and `potentialEnergy6`. -/
structure SiteForce (K : Type) where
  force : V3 (Num K)
  virial : V3 (Num K)
  upot6 : Num K

/-- LJMultisiteFunctor.h:218-237, 254-255 (AoS). -/
def msKernelAoS (c : MSCfg K) (typeA typeB : Nat) (displacement : V3 K) : SiteForce K :=
  let distanceSquared := displacement.inner displacement
  let sigmaSquared : Num K := .fin (c.mixSigmaSquared typeA typeB)
  let epsilon24 : Num K := .fin (c.mixEpsilon24 typeA typeB)
  let shift6 : Num K := .fin (if c.applyShift then c.mixShift6 typeA typeB else 0)
  let invDistSquared : Num K := .fin 1 / .fin distanceSquared
  let lj2 := sigmaSquared * invDistSquared
  let lj6 := lj2 * lj2 * lj2
  let lj12 := lj6 * lj6
  let lj12m6 := lj12 - lj6
  let scalarMultiple := epsilon24 * (lj12 + lj12m6) * invDistSquared
  let force := displacement.fin.scale scalarMultiple
  ⟨force, displacement.fin * force, epsilon24 * lj12m6 + shift6⟩

/-- The body of the loop over the sites of both molecules, LJMultisiteFunctor.h:216-268. `p`, `q` are the molecules `particleA`, `particleB` in memory, `a`, `b` what is
read of them. -/
def msAoSSites {P : Type} [DecidableEq P] (c : MSCfg K) (newton3 : Bool) (p q : P) (a b : MSMol K) (s : MSState P K) (i j : Nat) : MSState P K :=
  let rotA := (c.rotated a).getD i 0
  let rotB := (c.rotated b).getD j 0
  let k := msKernelAoS c ((c.siteIds a.type).getD i 0) ((c.siteIds b.type).getD j 0) (a.pos - b.pos - rotB + rotA)
  let F := Function.update s.force p (s.force p + k.force)
  let F := if newton3 then Function.update F q (F q - k.force) else F
  let T := Function.update s.torque p (s.torque p + rotA.fin.cross k.force)
  let T := if newton3 then Function.update T q (T q - rotB.fin.cross k.force) else T
  let G := if a.own = .owned then s.globals.plus k.virial k.upot6 else s.globals
  let G := if newton3 = true ∧ b.own = .owned then G.plus k.virial k.upot6 else G
  ⟨F, T, G⟩

/-- `AoSFunctor(particleA, particleB, newton3)`, LJMultisiteFunctor.h:178-271. -/
def msAoSCall {P : Type} [DecidableEq P] (c : MSCfg K) (mol : P → MSMol K) (s : MSState P K) (call : PairCall P) : MSState P K :=
  let a := mol call.p
  let b := mol call.q
  if a.own = .dummy ∨ b.own = .dummy then s
  else
    let displacementCoM := a.pos - b.pos
    if c.cutoffSquared < displacementCoM.inner displacementCoM then s
    else (List.range (c.numSites a.type)).foldl (fun s i =>
      (List.range (c.numSites b.type)).foldl (fun s j => msAoSSites c call.newton3 call.p call.q a b s i j) s) s

/-- A sequence of calls by one thread. -/
def msRun {P : Type} [DecidableEq P] (c : MSCfg K) (mol : P → MSMol K) (s : MSState P K) (calls : List (PairCall P)) : MSState P K :=
  calls.foldl (msAoSCall c mol) s

/-- An entry of the site-wise arrays `exactSitePosition`, `siteTypes`, `isSiteOwned`. -/
structure SoASite (K : Type) where
  exact : V3 K
  type : Nat
  owned : Bool

/-- Filling the site-wise arrays, LJMultisiteFunctor.h:361-381, 900-920 and 1251-1273; `mols` are the indices the loop runs over. -/
def msSites (c : MSCfg K) (mol : Nat → MSMol K) (mols : List Nat) : List (SoASite K) :=
  mols.flatMap fun m => (List.range (c.numSites (mol m).type)).map fun site =>
    ⟨(c.rotated (mol m)).getD site 0 + (mol m).pos, (c.siteIds (mol m).type).getD site 0, decide ((mol m).own = .owned)⟩

/-- Counting sites, LJMultisiteFunctor.h:333-337, 863-867 and 1193-1197. -/
def msSiteCount (c : MSCfg K) (mol : Nat → MSMol K) (mols : List Nat) : Nat := mols.foldl (fun n m => n + c.numSites (mol m).type) 0

/-- `molMask` and `siteMask`, LJMultisiteFunctor.h:417-448, 956-986 and 1298-1331: the masks of the molecules `mols`, seen from molecule `a`, for each of their sites. -/
def msSiteMask (c : MSCfg K) (mol : Nat → MSMol K) (a : MSMol K) (mols : List Nat) : List Bool :=
  let molMask := mols.map fun m =>
    let d := a.pos - (mol m).pos
    decide (d.x * d.x + d.y * d.y + d.z * d.z ≤ c.cutoffSquared ∧ (mol m).own ≠ .dummy)
  (mols.zip molMask).flatMap fun p => (List.range (c.numSites (mol p.1).type)).map fun _ => p.2

/-- The body of the loops over sites up to `potentialEnergy6`, LJMultisiteFunctor.h:481-522, 1020-1068 and 1375-1416. -/
def msKernelSoA (c : MSCfg K) (typeA typeB : Nat) (mask : Bool) (exactA exactB : V3 K) : SiteForce K :=
  let displacement := exactA - exactB
  let distanceSquared := displacement.x * displacement.x + displacement.y * displacement.y + displacement.z * displacement.z
  let sigmaSquared : Num K := .fin (c.mixSigmaSquared typeA typeB)
  let epsilon24 : Num K := .fin (c.mixEpsilon24 typeA typeB)
  let shift6 : Num K := .fin (if c.applyShift then c.mixShift6 typeA typeB else 0)
  let invDistSquared : Num K := .fin 1 / .fin distanceSquared
  let lj2 := sigmaSquared * invDistSquared
  let lj6 := lj2 * lj2 * lj2
  let lj12 := lj6 * lj6
  let lj12m6 := lj12 - lj6
  let scalarMultiple := if mask then epsilon24 * (lj12 + lj12m6) * invDistSquared else .fin 0
  let force : V3 (Num K) := ⟨scalarMultiple * .fin displacement.x, scalarMultiple * .fin displacement.y, scalarMultiple * .fin displacement.z⟩
  ⟨force, displacement.fin * force, if mask then epsilon24 * lj12m6 + shift6 else .fin 0⟩

/-- The variables of the inner loops: `siteForce`, `forceSum`, `torqueSum` and the sums for the globals. -/
structure MSInner (K : Type) where
  siteForce : Nat → V3 (Num K)
  forceSum : V3 (Num K)
  torqueSum : V3 (Num K)
  sums : LJGlobals K

/-- One iteration of the inner loop, LJMultisiteFunctor.h:478-533 (`SoAFunctorSingle`, which does not need `torqueSum`), 1019-1080, 1374-1432. `offset` is the index of the first of
the sites B (`siteIndexMolB`), `rotA` the site position of A relative to its molecule. -/
def msInner (c : MSCfg K) (newton3 : Bool) (ownedA : Bool) (typeA : Nat) (exactA rotA : V3 K) (sites : List (SoASite K)) (mask : List Bool) (offset : Nat) (s : MSInner K) (siteB : Nat) :
    MSInner K :=
  let B := sites.getD (siteB + offset) ⟨0, 0, false⟩
  let k := msKernelSoA c typeA B.type (mask.getD siteB false) exactA B.exact
  let factor : Num K := (if ownedA then .fin 1 else .fin 0) + (if newton3 = true ∧ B.owned = true then .fin 1 else .fin 0)
  { siteForce := if newton3 then Function.update s.siteForce (siteB + offset) (s.siteForce (siteB + offset) - k.force) else s.siteForce
    forceSum := s.forceSum + k.force
    torqueSum := s.torqueSum + rotA.fin.cross k.force
    sums := s.sums.plus ⟨k.virial.x * factor, k.virial.y * factor, k.virial.z * factor⟩ (k.upot6 * factor) }

/-- Reduction of the forces on sites to forces and torques of molecules, LJMultisiteFunctor.h:543-560, 1091-1108, 1444-1463. The state is the arrays of forces and torques and
`siteIndex`. -/
def msReduce (c : MSCfg K) (mol : Nat → MSMol K) (siteForce : Nat → V3 (Num K)) (mols : List Nat) (s : (ForceArr K × ForceArr K) × Nat) : (ForceArr K × ForceArr K) × Nat :=
  mols.foldl (fun s m => (List.range (c.numSites (mol m).type)).foldl (fun s site =>
    let f := siteForce s.2
    let r := ((c.rotated (mol m)).getD site 0).fin
    ((Function.update s.1.1 m (s.1.1 m + f), Function.update s.1.2 m (s.1.2 m + r.cross f)), s.2 + 1)) s) s

/-- One iteration of the outer loop of `SoAFunctorSingle`, LJMultisiteFunctor.h:404-540. The state is `siteIndexMolA`, the forces on sites and the sums. -/
def msSingleOuter (c : MSCfg K) (mol : Nat → MSMol K) (n siteCount : Nat) (sites : List (SoASite K)) (s : Nat × (Nat → V3 (Num K)) × LJGlobals K) (molA : Nat) :
    Nat × (Nat → V3 (Num K)) × LJGlobals K :=
  let siteIndexMolA := s.1
  let noSitesInMolA := c.numSites (mol molA).type
  if (mol molA).own = .dummy then (siteIndexMolA + noSitesInMolA, s.2)
  else
    let siteIndexMolB := siteIndexMolA + noSitesInMolA
    let noSitesB := siteCount - siteIndexMolB
    let siteMask := msSiteMask c mol (mol molA) (List.range' (molA + 1) (n - (molA + 1)))
    (siteIndexMolA + noSitesInMolA, (List.range' siteIndexMolA (siteIndexMolB - siteIndexMolA)).foldl (fun s siteA =>
      let A := sites.getD siteA ⟨0, 0, false⟩
      let r := (List.range noSitesB).foldl (msInner c true (decide ((mol molA).own = .owned)) A.type A.exact 0 sites siteMask siteIndexMolB) ⟨s.1, 0, 0, s.2⟩
      (Function.update r.siteForce siteA (r.siteForce siteA + r.forceSum), r.sums)) s.2)

/-- `SoAFunctorSingle(soa, newton3)`, LJMultisiteFunctor.h:278-589; the argument `newton3` is not used. `n` is `soa.size()`. -/
def msSoASingle (c : MSCfg K) (mol : Nat → MSMol K) (n : Nat) (s : MSState Nat K) : MSState Nat K :=
  if n = 0 then s
  else
    let siteCount := msSiteCount c mol (List.range n)
    let sites := msSites c mol (List.range n)
    let r := (List.range n).foldl (msSingleOuter c mol n siteCount sites) (0, (fun _ => 0), .zero)
    let ft := msReduce c mol r.2.1 (List.range n) ((s.force, s.torque), 0)
    ⟨ft.1.1, ft.1.2, s.globals.plus r.2.2.virialSum r.2.2.potentialEnergySum⟩

/-- The loops over the sites of molecule A and all sites B, LJMultisiteFunctor.h:996-1081 and 1343-1433. -/
def msRow (c : MSCfg K) (newton3 : Bool) (a : MSMol K) (sites : List (SoASite K)) (mask : List Bool) (siteCountB : Nat) (siteForce : Nat → V3 (Num K)) (sums : LJGlobals K) : MSInner K :=
  (List.range (c.numSites a.type)).foldl (fun s siteA =>
    let rotA := (c.rotated a).getD siteA 0
    (List.range siteCountB).foldl (msInner c newton3 (decide (a.own = .owned)) ((c.siteIds a.type).getD siteA 0) (rotA + a.pos) rotA sites mask 0) s) ⟨siteForce, 0, 0, sums⟩

/-- One iteration of the outer loop of `SoAFunctorPairImpl`, LJMultisiteFunctor.h:942-1088: the state is forces and torques of the first SoA, forces on the sites of the second, sums. -/
def msPairOuter (c : MSCfg K) (newton3 : Bool) (molA molB : Nat → MSMol K) (nB siteCountB : Nat) (sitesB : List (SoASite K))
    (s : (ForceArr K × ForceArr K) × (Nat → V3 (Num K)) × LJGlobals K) (i : Nat) : (ForceArr K × ForceArr K) × (Nat → V3 (Num K)) × LJGlobals K :=
  if (molA i).own = .dummy then s
  else
    let r := msRow c newton3 (molA i) sitesB (msSiteMask c molB (molA i) (List.range nB)) siteCountB s.2.1 s.2.2
    ((Function.update s.1.1 i (s.1.1 i + r.forceSum), Function.update s.1.2 i (s.1.2 i + r.torqueSum)), r.siteForce, r.sums)

/-- `SoAFunctorPair(soa1, soa2, newton3)`, LJMultisiteFunctor.h:593-600 and 792-1137. The arrays of the two SoAs do not overlap (`__restrict`). -/
def msSoAPair (c : MSCfg K) (newton3 : Bool) (molA molB : Nat → MSMol K) (nA nB : Nat) (s : MSState (Nat ⊕ Nat) K) : MSState (Nat ⊕ Nat) K :=
  if nA = 0 ∨ nB = 0 then s
  else
    let siteCountB := msSiteCount c molB (List.range nB)
    let sitesB := msSites c molB (List.range nB)
    let r := (List.range nA).foldl (msPairOuter c newton3 molA molB nB siteCountB sitesB) ((fun i => s.force (.inl i), fun i => s.torque (.inl i)), (fun _ => 0), .zero)
    let ft := msReduce c molB r.2.1 (List.range nB) ((fun i => s.force (.inr i), fun i => s.torque (.inr i)), 0)
    ⟨Sum.elim r.1.1 ft.1.1, Sum.elim r.1.2 ft.1.2, s.globals.plus r.2.2.virialSum r.2.2.potentialEnergySum⟩

/-- `SoAFunctorVerlet(soa, indexFirst, neighborList, newton3)`, LJMultisiteFunctor.h:607-616 and 1139-1490. -/
def msSoAVerlet (c : MSCfg K) (newton3 : Bool) (mol : Nat → MSMol K) (n indexPrime : Nat) (neighborList : List Nat) (s : MSState Nat K) : MSState Nat K :=
  if n = 0 ∨ neighborList = [] then s
  else if (mol indexPrime).own = .dummy then s
  else
    let siteCountNeighbors := msSiteCount c mol neighborList
    let r := msRow c newton3 (mol indexPrime) (msSites c mol neighborList) (msSiteMask c mol (mol indexPrime) neighborList) siteCountNeighbors (fun _ => 0) .zero
    let F := Function.update s.force indexPrime (s.force indexPrime + r.forceSum)
    let T := Function.update s.torque indexPrime (s.torque indexPrime + r.torqueSum)
    let ft := if newton3 then (msReduce c mol r.siteForce neighborList ((F, T), 0)).1 else (F, T)
    ⟨ft.1, ft.2, s.globals.plus r.sums.virialSum r.sums.potentialEnergySum⟩

end
end Verif
