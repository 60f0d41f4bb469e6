/-!
# How many iterations md-flexible expects

/repo/examples/md-flexible/src/Simulation.cpp:318-364 (`estimateNumberOfIterations`), the maximum of the progress bar.
-/
namespace Verif

/-- What `estimateNumberOfIterations` reads of the configuration. -/
structure EstimateConfig where
  iterations : Nat
  tuningPhases : Nat
  tuningInterval : Nat
  tuningSamples : Nat
  tuningMaxEvidence : Nat
  /-- one of the strategies is Bayesian search, Bayesian cluster search or random search, Simulation.cpp:321-326 -/
  samplesRandomly : Bool
  /-- size of the search space of the pairwise interactions, if there are any, :334-342; the search space is that of C102 -/
  pairwise : Option Nat
  /-- the same for triwise interactions, :344-352 -/
  triwise : Option Nat

/-- `configsTestedPerTuningPhase`, Simulation.cpp:320-356. -/
def EstimateConfig.tested (c : EstimateConfig) : Nat :=
  if c.samplesRandomly then c.tuningMaxEvidence else max (c.pairwise.getD 0) (c.triwise.getD 0)

/-- `estimateNumberOfIterations`, Simulation.cpp:318-364, in the arithmetic of `size_t`; whether the number is precise. -/
def EstimateConfig.estimate (c : EstimateConfig) : Nat × Bool :=
  if 0 < c.tuningPhases then
    (((c.tuningPhases - 1) * c.tuningInterval + c.tuningPhases * c.tuningSamples * c.tested + 1) % 2 ^ 64, false)
  else (c.iterations, true)

end Verif
