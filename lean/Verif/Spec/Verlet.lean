import Verif.Model.Verlet
import Mathlib.Algebra.BigOperators.Group.Finset.Basic
import Verif.Lemmas.Num
/-! The velocity Verlet method as in the textbooks, for particles `ι` in a force field. -/
namespace Verif.Spec
variable {K ι : Type} [Field K]

/-- A point of the phase space. -/
structure Phase (K ι : Type) where
  x : ι → V3 K
  v : ι → V3 K

/-- One time step: `x' = x + v dt + a(x) dt²/2`, `v' = v + (a(x) + a(x')) dt/2`, where `a = F/m`. -/
def verletStep (dt : K) (mass : ι → K) (F : (ι → V3 K) → ι → V3 K) (s : Phase K ι) : Phase K ι :=
  let a := fun y i => (F y i).scale (1 / mass i)
  let x' := fun i => s.x i + (s.v i).scale dt + (a s.x i).scale (dt ^ 2 / 2)
  ⟨x', fun i => s.v i + (a s.x i + a x' i).scale (dt / 2)⟩

/-- All that acts on the particles. -/
def totalForce (g : V3 K) (F : Forces K ι) (x : ι → V3 K) (i : ι) : V3 K := g + F.wall x i + F.interaction x i

/-- Positions and velocities of a state. -/
def phaseOf (s : ι → Body K) : Phase K ι := ⟨fun i => (s i).r, fun i => (s i).v⟩

/-- The stored forces are those at the stored positions. -/
def ForcesUpToDate (g : V3 K) (F : Forces K ι) (s : ι → Body K) : Prop := ∀ i, (s i).f = totalForce g F (fun j => (s j).r) i

/-- Every particle comes exactly once. -/
def Schedule (order : List ι) : Prop := order.Nodup ∧ ∀ i, i ∈ order

/-- Everything moves backwards. -/
def Phase.reverse (s : Phase K ι) : Phase K ι := ⟨s.x, fun i => -s.v i⟩

/-- `Σ m v`. -/
def momentum [Fintype ι] (mass : ι → K) (s : Phase K ι) : V3 K := ∑ i, (s.v i).scale (mass i)

end Verif.Spec
