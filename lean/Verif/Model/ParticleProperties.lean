import Verif.Model.Num
import Verif.Model.Outcome
import Verif.Model.NeighborListsBuffer
/-!
Model of /repo/applicationLibrary/molecularDynamics/molecularDynamicsLibrary/ParticlePropertiesLibrary.h.

The parallel vectors about molecule types (:312-318) are one list of records. `sqrt` and `cbrt` are parameters.
-/
namespace Verif

/-- `sqrt` (not finite for negative numbers) and `cbrt` of the C library. -/
structure RootFns (K : Type) where
  sqrt : K → Num K
  cbrt : K → K

/-- `PackedLJMixingData`, ParticlePropertiesLibrary.h:324-328. -/
structure LJMix (K : Type) where
  epsilon24 : Num K
  sigmaSquared : Num K
  shift6 : Num K
deriving DecidableEq

/-- What is stored about a type of molecules, ParticlePropertiesLibrary.h:312-318. -/
structure MolType (K : Type) where
  siteIds : List Nat
  relPos : List (V3 K)
  mass : K
  inertia : V3 K
  numSites : Nat
  largestSigma : K
deriving DecidableEq

/-- The members of the library, ParticlePropertiesLibrary.h:302-335. -/
structure PPL (K : Type) where
  cutoff : K
  numSites : Nat
  masses : List K
  epsilons : List K
  sigmas : List K
  nus : List K
  mols : List (MolType K)
  storeLJ : Bool
  storeAT : Bool
  ljMix : List (LJMix K)
  atMix : List K
deriving DecidableEq

section
variable {K : Type} [Field K] [LinearOrder K]

/-- The constructor, ParticlePropertiesLibrary.h:34. -/
def PPL.new (cutoff : K) : PPL K := ⟨cutoff, 0, [], [], [], [], [], false, false, [], []⟩

/-- `addSiteType`, ParticlePropertiesLibrary.h:339-358. -/
def PPL.addSiteType (s : PPL K) (id : Nat) (mass : K) : Outcome (PPL K) :=
  if s.numSites ≠ id then .throws
  else .ok { s with
    numSites := s.numSites + 1
    masses := s.masses ++ [mass]
    sigmas := if s.storeLJ then s.sigmas ++ [0] else s.sigmas
    epsilons := if s.storeLJ then s.epsilons ++ [0] else s.epsilons
    nus := if s.storeAT then s.nus ++ [0] else s.nus }

/-- `addLJParametersToSite`, ParticlePropertiesLibrary.h:361-377. -/
def PPL.addLJ (s : PPL K) (id : Nat) (epsilon sigma : K) : Outcome (PPL K) :=
  if s.numSites ≤ id then .throws
  else
    let resize := s.epsilons.length ≠ s.numSites
    let epsilons := if resize then vectorResize s.epsilons s.numSites 0 else s.epsilons
    let sigmas := if resize then vectorResize s.sigmas s.numSites 0 else s.sigmas
    if epsilons.length ≤ id ∨ sigmas.length ≤ id then .ub
    else .ok { s with storeLJ := true, epsilons := epsilons.set id epsilon, sigmas := sigmas.set id sigma }

/-- `addATParametersToSite`, ParticlePropertiesLibrary.h:380-393. -/
def PPL.addAT (s : PPL K) (id : Nat) (nu : K) : Outcome (PPL K) :=
  if s.numSites ≤ id then .throws
  else
    let nus := if s.nus.length ≠ s.numSites then vectorResize s.nus s.numSites 0 else s.nus
    if nus.length ≤ id then .ub else .ok { s with storeAT := true, nus := nus.set id nu }

/-- `addMolType`, ParticlePropertiesLibrary.h:396-440. -/
def PPL.addMolType (s : PPL K) (id : Nat) (siteIds : List Nat) (relPos : List (V3 K)) (inertia : V3 K) : Outcome (PPL K) :=
  if s.mols.length ≠ id then .throws
  else if siteIds.any fun i => decide (s.numSites ≤ i) then .throws
  else if siteIds.length ≠ relPos.length then .throws
  else if siteIds.any fun i => decide (s.masses.length ≤ i) then .ub
  else
    let mass := siteIds.foldl (fun m i => m + s.masses.getD i 0) 0
    if siteIds.any fun i => decide (s.sigmas.length ≤ i) then .ub
    else
      let largest := siteIds.foldl (fun m i => max m (s.sigmas.getD i 0)) 0
      .ok { s with mols := s.mols ++ [⟨siteIds, relPos, mass, inertia, siteIds.length, largest⟩] }

/-- `calcShift6`, ParticlePropertiesLibrary.h:575-581. -/
def calcShift6 (epsilon24 sigmaSquared cutoffSquared : Num K) : Num K :=
  let sigmaDivCutoffPow2 := sigmaSquared / cutoffSquared
  let sigmaDivCutoffPow6 := sigmaDivCutoffPow2 * sigmaDivCutoffPow2 * sigmaDivCutoffPow2
  epsilon24 * (sigmaDivCutoffPow6 - sigmaDivCutoffPow6 * sigmaDivCutoffPow6)

/-- The entry for a pair of types, ParticlePropertiesLibrary.h:458-469. -/
def PPL.ljEntry (R : RootFns K) (s : PPL K) (i j : Nat) : LJMix K :=
  let epsilon24 := .fin 24 * R.sqrt (s.epsilons.getD i 0 * s.epsilons.getD j 0)
  let sigma := (s.sigmas.getD i 0 + s.sigmas.getD j 0) / 2
  let sigmaSquared := sigma * sigma
  ⟨epsilon24, .fin sigmaSquared, calcShift6 epsilon24 (.fin sigmaSquared) (.fin (s.cutoff * s.cutoff))⟩

/-- `calculateMixingCoefficients`, ParticlePropertiesLibrary.h:443-488. The exception of :445 is constructed but not thrown. The loops write
every entry of the tables, in order. -/
def PPL.calculateMixing (R : RootFns K) (s : PPL K) : Outcome (PPL K) :=
  if s.storeLJ = true ∧ (s.epsilons.length < s.numSites ∨ s.sigmas.length < s.numSites) then .ub
  else if s.storeAT = true ∧ s.nus.length < s.numSites then .ub
  else .ok { s with
    ljMix := if s.storeLJ then
        (List.range s.numSites).flatMap fun i => (List.range s.numSites).map fun j => s.ljEntry R i j
      else s.ljMix
    atMix := if s.storeAT then
        (List.range s.numSites).flatMap fun i => (List.range s.numSites).flatMap fun j => (List.range s.numSites).map fun k =>
          R.cbrt (s.nus.getD i 0 * s.nus.getD j 0 * s.nus.getD k 0)
      else s.atMix }

/-- `getLJMixingData(i, j)`, ParticlePropertiesLibrary.h:234; also `getMixing24Epsilon` .. (:224-264). -/
def PPL.getLJMixingData (s : PPL K) (i j : Nat) : Outcome (LJMix K) :=
  match s.ljMix[i * s.numSites + j]? with
  | some e => .ok e
  | none => .ub

/-- `getMixingNu(i, j, k)`, ParticlePropertiesLibrary.h:283-287. -/
def PPL.getMixingNu (s : PPL K) (i j k : Nat) : Outcome K :=
  match s.atMix[i * s.numSites * s.numSites + j * s.numSites + k]? with
  | some e => .ok e
  | none => .ub

/-- `getSiteMass(i)`, ParticlePropertiesLibrary.h:491-493. -/
def PPL.getSiteMass (s : PPL K) (i : Nat) : Outcome K :=
  match s.masses[i]? with
  | some e => .ok e
  | none => .ub

/-- `getEpsilon(i)` and `getSigma(i)`, ParticlePropertiesLibrary.h:538-545. -/
def PPL.getEpsilonSigma (s : PPL K) (i : Nat) : Outcome (K × K) :=
  match s.epsilons[i]?, s.sigmas[i]? with
  | some e, some σ => .ok (e, σ)
  | _, _ => .ub

/-- The getters for molecule types, ParticlePropertiesLibrary.h:496-535, 553-572. -/
def PPL.getMolType (s : PPL K) (i : Nat) : Outcome (MolType K) :=
  match s.mols[i]? with
  | some e => .ok e
  | none => .ub

/-- A call of a function that changes the library. -/
inductive PPLAction (K : Type)
  | site (id : Nat) (mass : K)
  | lj (id : Nat) (epsilon sigma : K)
  | at (id : Nat) (nu : K)
  | mol (id : Nat) (siteIds : List Nat) (relPos : List (V3 K)) (inertia : V3 K)
  | mix

/-- One call. -/
def PPL.step (R : RootFns K) (s : PPL K) : PPLAction K → Outcome (PPL K)
  | .site id mass => s.addSiteType id mass
  | .lj id epsilon sigma => s.addLJ id epsilon sigma
  | .at id nu => s.addAT id nu
  | .mol id siteIds relPos inertia => s.addMolType id siteIds relPos inertia
  | .mix => s.calculateMixing R

/-- A history of calls; exceptions are caught and the next call is made. All exceptions are thrown before anything is changed. -/
def PPL.run (R : RootFns K) (s : PPL K) : List (PPLAction K) → Outcome (PPL K)
  | [] => .ok s
  | a :: as =>
    match s.step R a with
    | .ok s' => s'.run R as
    | .throws => s.run R as
    | .ub => .ub
    | .diverges => .diverges

end
end Verif
