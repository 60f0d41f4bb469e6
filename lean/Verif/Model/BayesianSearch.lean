import Verif.Model.AutoTuner
/-!
Model of /repo/src/autopas/tuning/tuningStrategy/BayesianSearch.{h,cpp}.

* Configurations are an arbitrary type with decidable equality (`Configuration::operator==` and `<` are the subject of C43; the encoding into
  vectors is that of C75).
* What `FeatureVectorEncoder::lhsSampleFeatures` returns is arbitrary: `sample k` is the result of the `k`-th call (C116 is about it).
* The predictions of the Gaussian process are arbitrary: `acquisition r D c` is the value of the acquisition function for `c` after the evidence
  `D`, if hyperparameters have been drawn `r` times (C115 is about the predictions).
* `std::sort` may put elements that compare equal in any order, so it is an arbitrary function that sorts (`BayesParams.Sorts`).
-/
namespace Verif

/-- What a `BayesianSearch` is constructed with, and what is random in it, BayesianSearch.h:49-58. -/
structure BayesParams (C V : Type) where
  maxEvidence : Nat
  sample : Nat → List C
  acquisition : Nat → List (C × Int) → C → V
  sort : (C → V) → List C → List C

/-- `std::sort` by the value of a function: the same elements, none after one with a larger value. -/
def BayesParams.Sorts {C V : Type} [LinearOrder V] (P : BayesParams C V) : Prop :=
  ∀ f l, (P.sort f l).Perm l ∧ (P.sort f l).Pairwise fun a b => f a ≤ f b

/-- The evidence in `_gaussianProcess` (the times are negated and scaled there, BayesianSearch.cpp:152-156), `_invalidConfigs`, how often
hyperparameters and samples were drawn from `_rng`, and whether the exception of BayesianSearch.cpp:97-100 was thrown. -/
structure BayesState (C : Type) where
  evidence : List (C × Int)
  invalid : List C
  tunes : Nat
  draws : Nat
  thrown : Bool

/-- The constructor, BayesianSearch.cpp:13-64 (what depends on the options is in `sample`). -/
def BayesState.init {C : Type} : BayesState C := { evidence := [], invalid := [], tunes := 0, draws := 0, thrown := false }

/-- `maxAttempts`, BayesianSearch.h:34. -/
def bayesMaxAttempts : Nat := 10

variable {C V : Type} [DecidableEq C]

/-- The loop that removes duplicates, BayesianSearch.cpp:119-127; `seen` are the keys of `acquisitions`. -/
def firstOccurrences (seen : List C) : List C → List C
  | [] => []
  | x :: xs => if x ∈ seen then firstOccurrences seen xs else x :: firstOccurrences (x :: seen) xs

/-- `sampleAcquisitions`, BayesianSearch.cpp:111-136. -/
def BayesState.sampleAcquisitions (P : BayesParams C V) (s : BayesState C) : List C :=
  P.sort (P.acquisition s.tunes s.evidence) (firstOccurrences [] (P.sample s.draws))

/-- The loop over the attempts from number `i` on, `n` of them left, BayesianSearch.cpp:76-107. -/
def BayesState.attempts (P : BayesParams C V) (queue : List C) : Nat → Nat → BayesState C → List C × BayesState C
  | 0, _, s => (queue, s)
  | n + 1, i, s =>
    let currentSamples := (s.sampleAcquisitions P).filter fun c => !(decide (c ∈ s.invalid) || !decide (c ∈ queue))
    let s := { s with draws := s.draws + 1 }
    if currentSamples.isEmpty then
      if i = bayesMaxAttempts then (queue, { s with thrown := true }) else BayesState.attempts P queue n (i + 1) s
    else (currentSamples.reverse, s)

/-- `optimizeSuggestions`, BayesianSearch.cpp:66-109. -/
def BayesState.optimize (P : BayesParams C V) (s : BayesState C) (queue : List C) : (List C × Bool) × BayesState C :=
  if s.evidence.length ≥ P.maxEvidence then (([], true), s)
  else
    let r := BayesState.attempts P queue bayesMaxAttempts 0 s
    ((r.1, false), r.2)

/-- The strategy as the tuner sees it: `reset`, BayesianSearch.cpp:158-162, `addEvidence`, :151-156, `rejectConfiguration`, :145-149.
`GaussianProcess::clear` and `addEvidence` draw hyperparameters, GaussianProcess.cpp:31-35, 72-78. -/
def bayesianSearch (P : BayesParams C V) : Strategy (BayesState C) C where
  reset s _ _ queue _ := BayesState.optimize P { s with evidence := [], tunes := s.tunes + 1 } queue
  optimize s queue _ := s.optimize P queue
  addEvidence s c e := { s with evidence := s.evidence ++ [(c, e.value)], tunes := s.tunes + 1 }
  reject s c indefinitely := if indefinitely then { s with invalid := c :: s.invalid } else s

end Verif
