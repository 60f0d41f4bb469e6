import Verif.Model.LJFunctor
/-! The Lennard-Jones potential as in the textbooks. -/
namespace Verif.Spec
variable {K : Type} [Field K] [LinearOrder K]

/-- Parameters for each pair of types: well depth, size, and what is added to the potential (0, or the shift that makes it continuous). -/
structure LJParams (K : Type) where
  epsilon : Nat → Nat → K
  sigma : Nat → Nat → K
  shift : Nat → Nat → K

/-- The parameters do not depend on the order of the types. -/
structure LJParams.Symmetric (p : LJParams K) : Prop where
  epsilon : ∀ i j, p.epsilon i j = p.epsilon j i
  sigma : ∀ i j, p.sigma i j = p.sigma j i
  shift : ∀ i j, p.shift i j = p.shift j i

/-- Squared length. -/
def normSq (d : V3 K) : K := d.x ^ 2 + d.y ^ 2 + d.z ^ 2

/-- `4 ε ((σ/r)^12 - (σ/r)^6) + shift` as a function of `r²`. -/
def ljU (ε σ shift r2 : K) : K := 4 * ε * ((σ ^ 2 / r2) ^ 6 - (σ ^ 2 / r2) ^ 3) + shift

/-- `24 ε (2 (σ/r)^12 - (σ/r)^6) / r² · d`: the force on a particle at distance vector `d` from the other one. -/
def ljF (ε σ : K) (d : V3 K) : V3 K := d.scale (24 * ε * (2 * (σ ^ 2 / normSq d) ^ 6 - (σ ^ 2 / normSq d) ^ 3) / normSq d)

/-- The two particles exist and are not farther apart than the cutoff. -/
def Interact (rc2 : K) (i j : Mol K) : Prop := i.own ≠ .dummy ∧ j.own ≠ .dummy ∧ normSq (i.pos - j.pos) ≤ rc2

instance (rc2 : K) (i j : Mol K) : Decidable (Interact rc2 i j) := by unfold Interact; infer_instance

/-- The force on `i` on account of `j`. -/
def ljForceOn (p : LJParams K) (rc2 : K) (i j : Mol K) : V3 K :=
  if Interact rc2 i j then ljF (p.epsilon i.type j.type) (p.sigma i.type j.type) (i.pos - j.pos) else 0

/-- The potential energy of `i` and `j`. -/
def ljEnergyOf (p : LJParams K) (rc2 : K) (i j : Mol K) : K :=
  if Interact rc2 i j then ljU (p.epsilon i.type j.type) (p.sigma i.type j.type) (p.shift i.type j.type) (normSq (i.pos - j.pos)) else 0

/-- Distance vector times force, componentwise. -/
def ljVirialOf (p : LJParams K) (rc2 : K) (i j : Mol K) : V3 K := (i.pos - j.pos) * ljForceOn p rc2 i j

/-- The functor was set up with these parameters: it stores `24 ε`, `σ²` and six times the shift. -/
structure SetUp (c : LJCfg K) (p : LJParams K) : Prop where
  epsilon : ∀ i j, c.eps i j = 24 * p.epsilon i j
  sigma : ∀ i j, c.sig i j = p.sigma i j ^ 2
  shift : ∀ i j, c.shift i j = 6 * p.shift i j

end Verif.Spec
