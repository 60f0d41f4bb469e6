import Verif.Model.LJMultisite
import Verif.Spec.LennardJones
/-! Rigid molecules with several Lennard-Jones sites, as in the textbooks. -/
namespace Verif.Spec
variable {K : Type} [Field K] [LinearOrder K]

/-- For each type of molecules: type and position, in the frame of the molecule, of each of its sites. -/
abbrev MolSites (K : Type) := Nat → List (Nat × V3 K)

/-- Where a site of a molecule is. -/
def sitePosition (m : MSMol K) (s : Nat × V3 K) : V3 K := m.pos + rotatePosition m.q s.2

/-- The two molecules exist and their centres are not farther apart than the cutoff. -/
def MSInteract (rc2 : K) (a b : MSMol K) : Prop := a.own ≠ .dummy ∧ b.own ≠ .dummy ∧ normSq (a.pos - b.pos) ≤ rc2

instance (rc2 : K) (a b : MSMol K) : Decidable (MSInteract rc2 a b) := by unfold MSInteract; infer_instance

/-- The sum over the sites of both molecules, if they interact. -/
def overSites {M : Type} [Zero M] [Add M] (sites : MolSites K) (rc2 : K) (a b : MSMol K) (f : Nat × V3 K → Nat × V3 K → M) : M :=
  if MSInteract rc2 a b then ((sites a.type).map fun s => ((sites b.type).map fun t => f s t).sum).sum else 0

/-- The force on site `s` of `a` on account of site `t` of `b`. -/
def siteForceOn (p : LJParams K) (a b : MSMol K) (s t : Nat × V3 K) : V3 K :=
  ljF (p.epsilon s.1 t.1) (p.sigma s.1 t.1) (sitePosition a s - sitePosition b t)

/-- The force on molecule `a` on account of `b`. -/
def msForceOn (p : LJParams K) (sites : MolSites K) (rc2 : K) (a b : MSMol K) : V3 K := overSites sites rc2 a b (siteForceOn p a b)

/-- The torque on molecule `a` about its centre on account of `b`. -/
def msTorqueOn (p : LJParams K) (sites : MolSites K) (rc2 : K) (a b : MSMol K) : V3 K :=
  overSites sites rc2 a b fun s t => (sitePosition a s - a.pos).cross (siteForceOn p a b s t)

/-- The potential energy of `a` and `b`. -/
def msEnergyOf (p : LJParams K) (sites : MolSites K) (rc2 : K) (a b : MSMol K) : K :=
  overSites sites rc2 a b fun s t => ljU (p.epsilon s.1 t.1) (p.sigma s.1 t.1) (p.shift s.1 t.1) (normSq (sitePosition a s - sitePosition b t))

/-- Distance vector times force, componentwise, of the sites. -/
def msVirialOf (p : LJParams K) (sites : MolSites K) (rc2 : K) (a b : MSMol K) : V3 K :=
  overSites sites rc2 a b fun s t => (sitePosition a s - sitePosition b t) * siteForceOn p a b s t

/-- No site of `a` sits exactly on a site of `b`, if the molecules interact. -/
def SitesApart (sites : MolSites K) (rc2 : K) (a b : MSMol K) : Prop :=
  MSInteract rc2 a b → ∀ s ∈ sites a.type, ∀ t ∈ sites b.type, sitePosition a s ≠ sitePosition b t

/-- The functor was set up with these parameters and molecules. -/
structure MSSetUp (c : MSCfg K) (p : LJParams K) (sites : MolSites K) : Prop where
  ids : ∀ t, c.siteIds t = (sites t).map Prod.fst
  positions : ∀ t, c.sitePos t = (sites t).map Prod.snd
  epsilon : ∀ i j, c.mixEpsilon24 i j = 24 * p.epsilon i j
  sigma : ∀ i j, c.mixSigmaSquared i j = p.sigma i j ^ 2
  shift : ∀ i j, (if c.applyShift then c.mixShift6 i j else 0) = 6 * p.shift i j

/-- A molecule after a rotation of space about the origin by the quaternion `p` followed by a translation by `t`. -/
def _root_.Verif.MSMol.moved (p : Q4 K) (t : V3 K) (m : MSMol K) : MSMol K := { m with pos := rotatePosition p m.pos + t, q := qMul p m.q }

end Verif.Spec
