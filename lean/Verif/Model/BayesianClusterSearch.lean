import Verif.Model.AutoTuner
/-!
Model of /repo/src/autopas/tuning/tuningStrategy/BayesianClusterSearch.{h,cpp}.

* Configurations are an arbitrary type with decidable equality; the encoding into a discrete and a continuous vector is that of C75.
* `sample k it` are the configurations of which `FeatureVectorEncoder::lhsSampleFeatureCluster` and `GaussianCluster` form pairs of vectors in the `k`-th call in
  iteration `it`; no two are equal (C120_samples; the conversion into configurations does not change the vectors).
* The predictions are arbitrary: `acquisition k D it c` is the value of the acquisition function for `c` after the evidence `D` (C120 is about them).
* `std::sort` is an arbitrary function that sorts.
* Not modelled: the warning in `reset`, and `_currentOptimalTime`, `_currentOptimalConfig`, `_currentAcquisitions`, which are never read.
-/
namespace Verif

/-- What a `BayesianClusterSearch` is constructed with, and what is random in it, BayesianClusterSearch.h:74-86. -/
structure ClusterSearchParams (C V : Type) where
  maxEvidence : Nat
  sample : Nat → Nat → List C
  acquisition : Nat → List (C × Evidence) → Nat → C → V
  sort : (C → V) → List C → List C

/-- The samples differ, and `sort` sorts. -/
structure ClusterSearchParams.Ok {C V : Type} [LinearOrder V] (P : ClusterSearchParams C V) : Prop where
  nodup : ∀ k it, (P.sample k it).Nodup
  sorts : ∀ f l, (P.sort f l).Perm l ∧ (P.sort f l).Pairwise fun a b => f a ≤ f b

/-- The evidence in `_gaussianCluster`, `_invalidConfigs`, `_firstTuningPhase`, `_currentIteration`, `_currentNumEvidence`, how often samples were drawn, and whether
the exception of BayesianClusterSearch.cpp:176-178 was thrown. -/
structure ClusterSearch (C : Type) where
  evidence : List (C × Evidence)
  invalid : List C
  firstPhase : Bool
  iteration : Nat
  num : Nat
  draws : Nat
  thrown : Bool

/-- The constructor, BayesianClusterSearch.cpp:13-74 (what depends on the options is in `sample`). -/
def ClusterSearch.init {C : Type} : ClusterSearch C := ⟨[], [], true, 0, 0, 0, false⟩

/-- `maxAttempts`, BayesianClusterSearch.h:32. -/
def clusterMaxAttempts : Nat := 10

variable {C V : Type} [DecidableEq C]

/-- `sampleAcquisitions`, BayesianClusterSearch.cpp:190-198, converted into configurations. -/
def ClusterSearch.sampleAcquisitions (P : ClusterSearchParams C V) (s : ClusterSearch C) : List C :=
  P.sort (P.acquisition s.draws s.evidence s.iteration) (P.sample s.draws s.iteration)

/-- The loop over the attempts from number `i` on, `n` of them left, BayesianClusterSearch.cpp:153-186. -/
def ClusterSearch.attempts (P : ClusterSearchParams C V) (queue : List C) : Nat → Nat → ClusterSearch C → List C × ClusterSearch C
  | 0, _, s => (queue, s)
  | n + 1, i, s =>
    let current := (s.sampleAcquisitions P).filter fun c => !(decide (c ∈ s.invalid) || !decide (c ∈ queue))
    let s := { s with draws := s.draws + 1 }
    if current.isEmpty then
      if i = clusterMaxAttempts then (queue, { s with thrown := true }) else ClusterSearch.attempts P queue n (i + 1) s
    else (current.reverse, s)

/-- `optimizeSuggestions`, BayesianClusterSearch.cpp:138-188. -/
def ClusterSearch.optimize (P : ClusterSearchParams C V) (s : ClusterSearch C) (queue : List C) : (List C × Bool) × ClusterSearch C :=
  if s.firstPhase then ((queue, false), s)
  else if s.num ≥ P.maxEvidence then (([], true), s)
  else
    let r := ClusterSearch.attempts P queue clusterMaxAttempts 0 s
    ((r.1, false), r.2)

/-- `reset`, BayesianClusterSearch.cpp:96-121. -/
def ClusterSearch.reset (P : ClusterSearchParams C V) (s : ClusterSearch C) (iteration phase : Nat) (queue : List C) : (List C × Bool) × ClusterSearch C :=
  let s := { s with iteration := iteration, num := 0, firstPhase := decide (phase = 0) }
  if !s.firstPhase then s.optimize P queue else ((queue, false), s)

/-- The strategy as the tuner sees it: `addEvidence`, BayesianClusterSearch.cpp:78-94, `rejectConfiguration`, :200-203. -/
def clusterSearch (P : ClusterSearchParams C V) : Strategy (ClusterSearch C) C where
  reset s iteration phase queue _ := s.reset P iteration phase queue
  optimize s queue _ := s.optimize P queue
  addEvidence s c e := { s with evidence := s.evidence ++ [(c, e)], iteration := e.iteration, num := s.num + 1 }
  reject s c _ := { s with invalid := c :: s.invalid }

end Verif
