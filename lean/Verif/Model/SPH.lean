import Verif.Model.PairLoops
import Mathlib.Analysis.Real.Sqrt
import Mathlib.Analysis.Real.Pi.Bounds
/-!
Model of the smoothed particle hydrodynamics library, /repo/applicationLibrary/sph/SPHLibrary/.

A `double` is a real number. Simplified: no rounding, and a quotient with divisor 0 is 0 and not `inf` or `NaN`; the theorems ask for positive
smoothing lengths and densities, with which the code does not divide by 0.
-/
namespace Verif

noncomputable section

/-- `kernelSupportRadius`, SPHKernels.h:21. -/
def sphSupport : ℝ := 2.5

/-- `W(dr2, h)`, SPHKernels.h:48-61. -/
def sphW (dr2 h : ℝ) : ℝ :=
  let H := sphSupport * h
  if dr2 < H * H then
    let s := Real.sqrt dr2 / H
    let s1 := 1 - s
    let s2 := max 0 (0.5 - s)
    ((s1 * s1 * s1) - 4 * (s2 * s2 * s2)) * (16 / Real.pi / (H * H * H))
  else 0

/-- `W(dr, h)`, SPHKernels.h:37-40. -/
def sphWVec (dr : V3 ℝ) (h : ℝ) : ℝ := sphW (dr.inner dr) h

/-- `gradW(dr, h)`, SPHKernels.h:75-90. -/
def sphGradW (dr : V3 ℝ) (h : ℝ) : V3 ℝ :=
  let H := sphSupport * h
  let drabs := Real.sqrt (dr.inner dr)
  let s := drabs / H
  let s1 := if 1 - s < 0 then 0 else 1 - s
  let s2 := if 0.5 - s < 0 then 0 else 0.5 - s
  let r_value := (-3 * (s1 * s1) + 12 * (s2 * s2)) * (16 / Real.pi / (H * H * H))
  let scale := r_value / (drabs * H + 1.0e-6 * h)
  dr.scale scale

/-- The attributes of an `SPHParticle` the functors only read, SPHParticle.h. `density` is read by the force functor only. -/
structure SPHAttr where
  pos : V3 ℝ
  vel : V3 ℝ
  mass : ℝ
  smth : ℝ
  density : ℝ
  pressure : ℝ
  soundSpeed : ℝ
  own : Ownership

/-- The body of `SPHCalcDensityFunctor::AoSFunctor`, SPHCalcDensityFunctor.h:47-59. -/
def sphDensityAoS (i j : SPHAttr) : Option (ℝ × ℝ) :=
  if i.own = .dummy ∨ j.own = .dummy then none
  else
    let dr := j.pos - i.pos
    some (j.mass * sphWVec dr i.smth, i.mass * sphWVec dr j.smth)

/-- The body of the inner loops of the SoA functions, SPHCalcDensityFunctor.h:104-123, 166-187, 226-247. -/
def sphDensitySoA (i j : SPHAttr) : Option (ℝ × ℝ) :=
  let dr := i.pos - j.pos
  let dr2 := dr.x * dr.x + dr.y * dr.y + dr.z * dr.z
  some (if j.own ≠ .dummy then j.mass * sphW dr2 i.smth else 0, if j.own ≠ .dummy then i.mass * sphW dr2 j.smth else 0)

/-- `SPHCalcDensityFunctor`; the computed attribute is the density (SPHCalcDensityFunctor.h:277-279). -/
def sphDensity : PairFunctor SPHAttr ℝ where
  own := SPHAttr.own
  aos := sphDensityAoS
  soa := sphDensitySoA
  add := (· + ·)
  zero := 0

/-- The attributes `SPHCalcHydroForceFunctor` computes, SPHCalcHydroForceFunctor.h:530-534. -/
structure HydroOut where
  acc : V3 ℝ
  engDot : ℝ
  vsigmax : ℝ

/-- `addAcceleration`, `addEngDot`, `checkAndSetVSigMax` (SPHParticle.cpp:15-18, SPHParticle.h:175) and the last lines of the SoA functions,
SPHCalcHydroForceFunctor.h:219-223. -/
def HydroOut.plus (a b : HydroOut) : HydroOut := ⟨a.acc + b.acc, a.engDot + b.engDot, max a.vsigmax b.vsigmax⟩

/-- The body of the force functor for two particles that are not skipped, with `dr2` given: SPHCalcHydroForceFunctor.h:64-104, and 159-215,
285-355, 421-487 of the SoA functions. The acceleration of `i` is subtracted, that of `j` added. -/
def sphHydroBody (i j : SPHAttr) (dr : V3 ℝ) (dr2 : ℝ) : HydroOut × HydroOut :=
  let dv := i.vel - j.vel
  let dvdr := dv.inner dr
  let w_ij := if dvdr < 0 then dvdr / Real.sqrt dr2 else 0
  let v_sig := i.soundSpeed + j.soundSpeed - 3 * w_ij
  let AV := -0.5 * v_sig * w_ij / (0.5 * (i.density + j.density))
  let gradW_ij := (sphGradW dr i.smth + sphGradW dr j.smth).scale 0.5
  let scale := i.pressure / (i.density * i.density) + j.pressure / (j.density * j.density) + AV
  let scale2i := j.mass * (i.pressure / (i.density * i.density) + 0.5 * AV)
  let scale2j := i.mass * (j.pressure / (j.density * j.density) + 0.5 * AV)
  (⟨-(gradW_ij.scale (scale * j.mass)), gradW_ij.inner dv * scale2i, v_sig⟩,
    ⟨gradW_ij.scale (scale * i.mass), gradW_ij.inner dv * scale2j, v_sig⟩)

/-- The body of `SPHCalcHydroForceFunctor::AoSFunctor`, SPHCalcHydroForceFunctor.h:49-104: only the smoothing length of the first particle
decides whether the two interact. -/
def sphHydroAoS (i j : SPHAttr) : Option (HydroOut × HydroOut) :=
  if i.own = .dummy ∨ j.own = .dummy then none
  else
    let dr := i.pos - j.pos
    let cutoff := i.smth * sphSupport
    if cutoff * cutoff ≤ dr.inner dr then none else some (sphHydroBody i j dr (dr.inner dr))

/-- The body of the inner loops of the SoA functions, SPHCalcHydroForceFunctor.h:148-216, 274-356, 410-488. -/
def sphHydroSoA (i j : SPHAttr) : Option (HydroOut × HydroOut) :=
  let dr := i.pos - j.pos
  let dr2 := dr.x * dr.x + dr.y * dr.y + dr.z * dr.z
  let cutoff := i.smth * sphSupport
  if cutoff * cutoff ≤ dr2 ∨ j.own = .dummy then none else some (sphHydroBody i j dr dr2)

/-- `SPHCalcHydroForceFunctor`. -/
def sphHydro : PairFunctor SPHAttr HydroOut where
  own := SPHAttr.own
  aos := sphHydroAoS
  soa := sphHydroSoA
  add := HydroOut.plus
  zero := ⟨0, 0, 0⟩

/-- `SPHParticle::calcPressure()`, SPHParticle.cpp:25-29: pressure and speed of sound. -/
def sphCalcPressure (density energy : ℝ) : ℝ × ℝ :=
  let hcr : ℝ := 1.4
  let pressure := (hcr - 1) * density * energy
  (pressure, Real.sqrt (hcr * pressure / density))

/-- `SPHParticle::calcDt()`, SPHParticle.h:262-265. -/
def sphCalcDt (smth vsigmax : ℝ) : ℝ := 0.3 * 2 * smth / vsigmax

/-- The initial density of a particle before the functor is applied, /repo/examples/sph/sph-main.cpp:230-234: `setDensity(0)`, the AoS
function with the particle as both arguments, half of the result. -/
def sphSelfDensity {P : Type} [DecidableEq P] (attr : P → SPHAttr) (p : P) : ℝ :=
  sphDensity.aosCall attr (fun _ => 0) ⟨p, p, true⟩ p / 2

/-- `getTimeStepGlobal`, sph-main.cpp:64-76. -/
def sphTimeStep (particles : List (ℝ × ℝ)) : ℝ := particles.foldl (fun dt p => min dt (sphCalcDt p.1 p.2)) 1.0e+30

end

end Verif
