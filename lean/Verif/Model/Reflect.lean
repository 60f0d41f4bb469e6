import Verif.Model.MDDomain
import Verif.Model.Num
/-!
# Reflective boundaries of md-flexible (single-site molecules)

/repo/examples/md-flexible/src/domainDecomposition/RegularGridDecomposition.cpp:304-457. The region iterator comes to every owned particle in the
region exactly once (C32), and the loop changes only the force of the particle it is at: the model follows one particle through all loops.
-/
namespace Verif

/-- What the reflection reads: `sixthRootOfTwo` (RegularGridDecomposition.h:23), `_maxReflectiveSkin` (RegularGridDecomposition.cpp:51-55), and the
particle properties `getSigma`, `getMixingSigmaSquared(t, t)`, `getMixing24Epsilon(t, t)`. -/
structure Reflection where
  root : Rat
  maxSkin : Rat
  sigma : Nat → Rat
  sigmaSquared : Nat → Rat
  epsilon24 : Nat → Rat

/-- `_maxReflectiveSkin = sixthRootOfTwo * maxSigma / 2`, RegularGridDecomposition.cpp:51-55, for the list of all sigmas. -/
def maxReflectiveSkin (root : Rat) (sigmas : List Rat) : Rat := root * sigmas.foldl max 0 / 2

/-- `LJKernel`, RegularGridDecomposition.cpp:342-357. -/
def ljKernel (sitePosition mirrorSitePosition : V3 Rat) (sigmaSquared epsilon24 : Rat) : V3 (Num Rat) :=
  let displacement := sitePosition - mirrorSitePosition
  let distanceSquared := displacement.inner displacement
  let inverseDistanceSquared : Num Rat := .fin 1 / .fin distanceSquared
  let lj2 := .fin sigmaSquared * inverseDistanceSquared
  let lj6 := lj2 * lj2 * lj2
  let lj12 := lj6 * lj6
  let lj12m6 := lj12 - lj6
  let scalarMultiple := .fin epsilon24 * (lj12 + lj12m6) * inverseDistanceSquared
  displacement.fin.scale scalarMultiple

/-- `mirrorPosition`, RegularGridDecomposition.cpp:412-417. -/
def mirrorPosition (position : V3 Rat) (d : Axis) (boundaryPosition : Rat) : V3 Rat :=
  position.put d (position.at d + 2 * (boundaryPosition - position.at d))

/-- The body of the loop of `reflect`, RegularGridDecomposition.cpp:318-424, for a particle of type `t`: the new force. -/
def Reflection.reflectOne (R : Reflection) (t : Nat) (position : V3 Rat) (d : Axis) (boundaryPosition : Rat) (f : V3 (Num Rat)) : V3 (Num Rat) :=
  if |position.at d - boundaryPosition| < R.root * (1 / 2) * R.sigma t then
    f + ljKernel position (mirrorPosition position d boundaryPosition) (R.sigmaSquared t) (R.epsilon24 t)
  else f

/-- One dimension, RegularGridDecomposition.cpp:309-456: the lower and the upper boundary, for a particle of rank `r`. -/
def Reflection.dimension (R : Reflection) (D : RGD) (r : V3 Nat) (t : Nat) (position : V3 Rat) (f : V3 (Num Rat)) (d : Axis) : V3 (Num Rat) :=
  if D.boundary.at d ≠ .reflective then f
  else
    let f1 := if D.atMin d r && inBoxB position D.gMin (D.gMax.put d (D.gMin.at d + R.maxSkin)) then
      R.reflectOne t position d (D.gMin.at d) f else f
    if D.atMax d r && inBoxB position (D.gMin.put d (D.gMax.at d - R.maxSkin)) D.gMax then R.reflectOne t position d (D.gMax.at d) f1 else f1

/-- `reflectParticlesAtBoundaries`, RegularGridDecomposition.cpp:304-457: the force of an owned particle of rank `r` afterwards. -/
def Reflection.reflect (R : Reflection) (D : RGD) (r : V3 Nat) (t : Nat) (position : V3 Rat) (f : V3 (Num Rat)) : V3 (Num Rat) :=
  [Axis.x, .y, .z].foldl (R.dimension D r t position) f

end Verif
