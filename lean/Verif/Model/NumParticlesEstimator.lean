import Mathlib.Data.Rat.Floor
import Verif.Model.Basic
import Verif.Model.Outcome
/-!
# Estimating the number of halo particles

/repo/src/autopas/utils/NumParticlesEstimator.cpp. `double` is `Rat`.
-/
namespace Verif

/-- `static_cast<size_t>` of a `double`: truncation, undefined outside of the range. -/
def toSizeT (q : Rat) : Outcome Nat := if -1 < q ∧ q < 18446744073709551616 then .ok ⌊q⌋.toNat else .ub

/-- `estimateNumHalosUniform`, NumParticlesEstimator.cpp:8-24. For a box without volume the quotient is infinite or NaN, so that its conversion is
undefined. -/
def estimateNumHalosUniform (numParticles : Nat) (boxMin boxMax : V3 Rat) (haloWidth : Rat) : Outcome Nat :=
  let boxLength : V3 Rat := ⟨boxMax.x - boxMin.x, boxMax.y - boxMin.y, boxMax.z - boxMin.z⟩
  let boxVolume := boxLength.x * boxLength.y * boxLength.z
  let haloBoxLength : V3 Rat := ⟨boxLength.x + 2 * haloWidth, boxLength.y + 2 * haloWidth, boxLength.z + 2 * haloWidth⟩
  let haloVolume := haloBoxLength.x * haloBoxLength.y * haloBoxLength.z
  if boxVolume = 0 then .ub else toSizeT (numParticles * (haloVolume / boxVolume))

/-- `LogicHandler::reserve(numParticles)`, LogicHandler.h:274-299: the capacity every buffer asks for, and the two numbers the container is given. The
number of buffers is the number of threads. -/
def reserveRequests (numParticles buffers : Nat) (boxMin boxMax : V3 Rat) (interactionLength : Rat) : Outcome (Nat × Nat × Nat) :=
  (estimateNumHalosUniform numParticles boxMin boxMax interactionLength).bind fun h =>
    if buffers = 0 then .ub else .ok (h / buffers, numParticles, h)

end Verif
