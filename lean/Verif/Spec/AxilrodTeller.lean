import Verif.Model.AxilrodTeller
import Verif.Spec.LennardJones
import Mathlib.Analysis.SpecialFunctions.Sqrt
/-! The Axilrod-Teller potential. Reference: /repo/applicationLibrary/molecularDynamics/molecularDynamicsLibrary/AxilrodTellerFunctor.h:22-83,
`U = ν (1 + 3 cos γ₁ cos γ₂ cos γ₃) / (r₁₂ r₂₃ r₃₁)³`. -/
namespace Verif.Spec

/-- Distance. -/
noncomputable def atDist (p q : V3 ℝ) : ℝ := Real.sqrt (normSq (p - q))

/-- Cosine of the angle at `p` of the triangle `p`, `q`, `s`. -/
noncomputable def atCos (p q s : V3 ℝ) : ℝ := (q - p).inner (s - p) / (atDist p q * atDist p s)

/-- The energy of three particles. -/
noncomputable def atU (ν : ℝ) (p q s : V3 ℝ) : ℝ :=
  ν * (1 + 3 * (atCos p q s * atCos q s p * atCos s p q)) / (atDist p q * atDist q s * atDist s p) ^ 3

/-- The three particles exist and none of their distances is above the cutoff. -/
def Interact3 {K : Type} [Field K] [LinearOrder K] (rc2 : K) (i j k : Mol K) : Prop := Interact rc2 i j ∧ Interact rc2 j k ∧ Interact rc2 k i

/-- `ν` does not depend on the order of the types. -/
structure SymmetricNu {K : Type} [Field K] [LinearOrder K] (c : ATCfg K) : Prop where
  swap : ∀ i j k, c.nuOf i j k = c.nuOf j i k
  rotate : ∀ i j k, c.nuOf i j k = c.nuOf j k i

/-- `std::sqrt` on the reals. -/
noncomputable def sqrtR (x : ℝ) : Num ℝ := if x < 0 then .nonFinite else .fin (Real.sqrt x)

end Verif.Spec
