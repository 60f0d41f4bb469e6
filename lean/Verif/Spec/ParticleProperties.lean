import Verif.Model.ParticleProperties
/-! What a user of the particle properties library has registered. Reference: the documentation in
/repo/applicationLibrary/molecularDynamics/molecularDynamicsLibrary/ParticlePropertiesLibrary.h:47-96. -/
namespace Verif.Spec
variable {K : Type} [Field K]

/-- The registered site types (`0, …, sites - 1`) and the values last given for them; a value never given is 0. -/
structure Registry (K : Type) where
  sites : Nat
  molecules : Nat
  mass : Nat → K
  epsilon : Nat → K
  sigma : Nat → K
  nu : Nat → K
  anyLJ : Bool
  anyAT : Bool

/-- Nothing is registered. -/
def Registry.empty : Registry K := ⟨0, 0, fun _ => 0, fun _ => 0, fun _ => 0, fun _ => 0, false, false⟩

/-- The calls that are accepted: ids are given consecutively, and values only for registered sites. -/
def Registry.Accepts (r : Registry K) : PPLAction K → Prop
  | .site id _ => id = r.sites
  | .lj id _ _ => id < r.sites
  | .at id _ => id < r.sites
  | .mol id siteIds relPos _ => id = r.molecules ∧ (∀ i ∈ siteIds, i < r.sites) ∧ siteIds.length = relPos.length
  | .mix => True

instance (r : Registry K) (a : PPLAction K) : Decidable (r.Accepts a) := by
  cases a <;> unfold Registry.Accepts <;> infer_instance

/-- The effect of an accepted call. -/
def Registry.after (r : Registry K) : PPLAction K → Registry K
  | .site id mass => { r with sites := r.sites + 1, mass := fun i => if i = id then mass else r.mass i }
  | .lj id epsilon sigma =>
    { r with
      epsilon := fun i => if i = id then epsilon else r.epsilon i
      sigma := fun i => if i = id then sigma else r.sigma i
      anyLJ := true }
  | .at id nu => { r with nu := fun i => if i = id then nu else r.nu i, anyAT := true }
  | .mol _ _ _ _ => { r with molecules := r.molecules + 1 }
  | .mix => r

/-- What is registered after a history of calls. -/
def registered (h : List (PPLAction K)) : Registry K :=
  h.foldl (fun r a => if r.Accepts a then r.after a else r) .empty

/-- Molecules are registered only after Lennard-Jones parameters have been given for some site. -/
def MoleculesAfterLJ (h : List (PPLAction K)) : Prop :=
  ∀ p id siteIds relPos inertia q, h = p ++ .mol id siteIds relPos inertia :: q → siteIds ≠ [] → (registered p).anyLJ = true

/-- `sqrt` and `cbrt` are the roots. -/
structure RootLaws [LinearOrder K] (R : RootFns K) : Prop where
  sqrt : ∀ x, 0 ≤ x → ∃ y, R.sqrt x = .fin y ∧ 0 ≤ y ∧ y ^ 2 = x
  sqrt_neg : ∀ x, x < 0 → R.sqrt x = .nonFinite
  cbrt : ∀ x, R.cbrt x ^ 3 = x

end Verif.Spec
