import Verif.Model.Num
import Mathlib.Analysis.Calculus.Deriv.Basic
/-! Forces as gradients. -/
namespace Verif

/-- `F` is minus the gradient of the function `U` of a position, at `p`. -/
structure MinusGradient (U : V3 ℝ → ℝ) (F p : V3 ℝ) : Prop where
  x : HasDerivAt (fun t => U ⟨t, p.y, p.z⟩) (-F.x) p.x
  y : HasDerivAt (fun t => U ⟨p.x, t, p.z⟩) (-F.y) p.y
  z : HasDerivAt (fun t => U ⟨p.x, p.y, t⟩) (-F.z) p.z

end Verif
