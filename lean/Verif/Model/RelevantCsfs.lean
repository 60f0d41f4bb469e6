import Verif.Model.Basic
import Mathlib.Data.Rat.Floor
/-!
Model of `calculateRelevantCsfs`, /repo/src/autopas/tuning/utils/SearchSpaceGenerators.cpp:79-100, with exact numbers. The conversions to `unsigned int` require the number of
cells to fit.
-/
namespace Verif

/-- `numCellsMin`, SearchSpaceGenerators.cpp:87-88. -/
def numCellsMin (csfMax interactionLength domainLength : Rat) : Nat := ⌈domainLength / (interactionLength * csfMax)⌉.toNat

/-- `numCellsMax`, SearchSpaceGenerators.cpp:90-91. -/
def numCellsMax (csfMin interactionLength domainLength : Rat) : Nat := ⌊domainLength / (interactionLength * csfMin)⌋.toNat

/-- `calculateRelevantCsfs`, SearchSpaceGenerators.cpp:79-100: the elements in the order of insertion. -/
def calculateRelevantCsfs (csfMin csfMax interactionLength domainLength : Rat) : List Rat :=
  (forUp (numCellsMin csfMax interactionLength domainLength) (numCellsMax csfMin interactionLength domainLength + 1) 1).map fun (n : Nat) =>
    domainLength / ((n : Rat) * interactionLength)

end Verif
