import Verif.Model.SPH
import Verif.Spec.LennardJones
/-! Smoothed particle hydrodynamics as in the textbooks (J. J. Monaghan). -/
namespace Verif.Spec

noncomputable section

/-- Length of a vector. -/
def len (d : V3 ℝ) : ℝ := Real.sqrt (normSq d)

/-- The cubic spline kernel with support radius `H`. -/
def spline (H r : ℝ) : ℝ :=
  8 / (Real.pi * H ^ 3) * (if r ≤ H / 2 then 1 - 6 * (r / H) ^ 2 + 6 * (r / H) ^ 3 else if r ≤ H then 2 * (1 - r / H) ^ 3 else 0)

/-- Its derivative by `r` (see `C98_gradient`). -/
def splineSlope (H r : ℝ) : ℝ :=
  48 / (Real.pi * H ^ 4) * (if r ≤ H / 2 then 3 * (r / H) ^ 2 - 2 * (r / H) else if r ≤ H then -(1 - r / H) ^ 2 else 0)

/-- The support radius is 2.5 smoothing lengths. -/
def supportOf (h : ℝ) : ℝ := 5 / 2 * h

/-- What particle `b` adds to the density at particle `a`, with the smoothing length of `a`. -/
def densityFrom (a b : SPHAttr) : ℝ := if b.own = .dummy then 0 else b.mass * spline (supportOf a.smth) (len (a.pos - b.pos))

/-- The gradient of the kernel at distance vector `d`; the direction `d / |d|` is regularised to `d / (|d| + 4e-7)`. -/
def gradKernel (h : ℝ) (d : V3 ℝ) : V3 ℝ := d.scale (splineSlope (supportOf h) (len d) / (len d + 4 / 10000000))

/-- The mean of the gradients with both smoothing lengths. -/
def gradMean (a b : SPHAttr) : V3 ℝ := (gradKernel a.smth (a.pos - b.pos) + gradKernel b.smth (a.pos - b.pos)).scale (1 / 2)

/-- The speed with which two particles approach each other, negative; 0 if they do not. -/
def approach (a b : SPHAttr) : ℝ := min 0 ((a.vel - b.vel).inner (a.pos - b.pos)) / len (a.pos - b.pos)

/-- Signal speed. -/
def signalSpeed (a b : SPHAttr) : ℝ := a.soundSpeed + b.soundSpeed - 3 * approach a b

/-- Artificial viscosity. -/
def viscosity (a b : SPHAttr) : ℝ := -(signalSpeed a b * approach a b) / (a.density + b.density)

/-- Both particles exist and are closer than the support radius for the smoothing length `h`. -/
def HydroInteract (h : ℝ) (a b : SPHAttr) : Prop := a.own ≠ .dummy ∧ b.own ≠ .dummy ∧ len (a.pos - b.pos) < supportOf h

open Classical in
/-- The acceleration of `a` by the pressure and the viscosity between `a` and `b`. -/
def hydroAcc (h : ℝ) (a b : SPHAttr) : V3 ℝ :=
  if HydroInteract h a b then
    (gradMean a b).scale (-(b.mass * (a.pressure / a.density ^ 2 + b.pressure / b.density ^ 2 + viscosity a b)))
  else 0

open Classical in
/-- The change of the internal energy of `a`. -/
def hydroHeat (h : ℝ) (a b : SPHAttr) : ℝ :=
  if HydroInteract h a b then
    b.mass * (a.pressure / a.density ^ 2 + viscosity a b / 2) * (a.vel - b.vel).inner (gradMean a b)
  else 0

end

end Verif.Spec
