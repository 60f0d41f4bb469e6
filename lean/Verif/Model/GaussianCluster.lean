import Verif.Model.Acquisition
import Mathlib.Analysis.SpecialFunctions.Pow.Real
/-!
Model of /repo/src/autopas/tuning/tuningStrategy/GaussianModel/GaussianCluster.{h,cpp}, with real numbers instead of doubles.

* Continuous vectors have the dimension of the clusters by type, so the exception for other dimensions cannot occur. Discrete vectors are lists.
* Without overflow: the product of the dimensions is a natural number.
* The logger is not modelled.
* What is random or left open is in `GaussEnv`, as for `GaussianProcess`.
-/
namespace Verif

/-- `GaussianCluster::WeightFunction`, GaussianCluster.h:40-55. -/
inductive ClusterWeight
  | evidenceMatchingProbabilityGM
  | evidenceMatchingScaledProbabilityGM
  | wasserstein2
deriving DecidableEq

/-- The members of `GaussianCluster`, GaussianCluster.h:248-299; `_sigma` and `_weightFun` are parameters of the functions. `draws`: how often
hyperparameters were drawn. -/
structure GaussCluster (d : ℕ) where
  dims : List Int
  clusters : List (GaussProc d)
  vectors : List (List Int)
  evidenceMin : ℝ
  evidenceMax : ℝ
  evidenceMaxVector : Option (List Int × (Fin d → ℝ))
  numEvidence : ℕ
  draws : ℕ

/-- `discreteIncrement`, GaussianCluster.cpp:293-300: the loop over the entries. -/
def discreteIncrement : List Int → List Int → List Int
  | r :: rs, x :: xs => if x + 1 < r then (x + 1) :: xs else 0 :: discreteIncrement rs xs
  | _, xs => xs

/-- `_discreteVectorMap` after `initClusters`, GaussianCluster.cpp:266-270: `n` vectors from `x` on. -/
def discreteVectors (dims : List Int) : ℕ → List Int → List (List Int)
  | 0, _ => []
  | n + 1, x => x :: discreteVectors dims n (discreteIncrement dims x)

/-- The product of the dimensions, GaussianCluster.cpp:249-257; throws if one is not positive. -/
def numClusters : ℕ → List Int → Outcome ℕ
  | acc, [] => .ok acc
  | acc, r :: rs => if r ≤ 0 then .throws else numClusters (acc * r.toNat) rs

/-- The loop of `getIndex`, GaussianCluster.cpp:280-288, from the last entry to the first; the recursion has seen the later entries first. -/
def clusterIndex : List Int → List Int → Outcome ℕ
  | r :: rs, x :: xs => (clusterIndex rs xs).bind fun result => if x < 0 ∨ x ≥ r then .throws else .ok (result * r.toNat + x.toNat)
  | _, _ => .ok 0

/-- `getIndex`, GaussianCluster.cpp:273-291. -/
def getClusterIndex (dims x : List Int) : Outcome ℕ :=
  if x.length ≠ dims.length then .throws else clusterIndex dims x

variable {d : ℕ}

/-- `initClusters`, GaussianCluster.cpp:248-271, with the values that are left over. -/
noncomputable def GaussCluster.initClusters (env : GaussEnv) (sigma : ℝ) (c : GaussCluster d) : Outcome (GaussCluster d) :=
  (numClusters 1 c.dims).bind fun n =>
    .ok { c with
      clusters := List.replicate n (GaussProc.init env sigma)
      vectors := discreteVectors c.dims n (List.replicate c.dims.length 0)
      numEvidence := 0 }

/-- The constructor, GaussianCluster.cpp:9-24. -/
noncomputable def GaussCluster.init (env : GaussEnv) (sigma : ℝ) (dims : List Int) : Outcome (GaussCluster d) :=
  GaussCluster.initClusters env sigma
    { dims := dims, clusters := [], vectors := [], evidenceMin := 0, evidenceMax := 0, evidenceMaxVector := none, numEvidence := 0, draws := 0 }

/-- `setDimensions`, GaussianCluster.cpp:30-33. -/
noncomputable def GaussCluster.setDimensions (env : GaussEnv) (sigma : ℝ) (c : GaussCluster d) (dims : List Int) : Outcome (GaussCluster d) :=
  GaussCluster.initClusters env sigma { c with dims := dims }

/-- `clear`, GaussianCluster.cpp:39-44: `for (auto cluster : _clusters)` copies each cluster, and clears the copy. -/
noncomputable def GaussCluster.clear (env : GaussEnv) (sigma : ℝ) (c : GaussCluster d) : GaussCluster d :=
  let _copies := c.clusters.map fun g => g.clear env sigma
  { c with numEvidence := 0 }

/-- `GaussianProcess::addEvidence(input, output, false)`, GaussianProcess.cpp:43-74. -/
noncomputable def GaussProc.addUntuned (g : GaussProc d) (input : Fin d → ℝ) (output : ℝ) : GaussProc d :=
  let ext : ℝ × ℝ × Option (Fin d → ℝ) :=
    if g.n = 0 then (output, output, some input)
    else if output < g.evidenceMin then (output, g.evidenceMax, g.evidenceMaxVector)
    else if output > g.evidenceMax then (g.evidenceMin, output, some input)
    else (g.evidenceMin, g.evidenceMax, g.evidenceMaxVector)
  { n := g.n + 1, inputs := Fin.snoc (α := fun _ => Fin d → ℝ) g.inputs input, outputs := Fin.snoc (α := fun _ => ℝ) g.outputs output
    evidenceMin := ext.1, evidenceMax := ext.2.1, evidenceMaxVector := ext.2.2, hypers := [], tunes := g.tunes }

/-- `GaussianProcess::getEvidence`, GaussianProcess.cpp:38-41. -/
def GaussProc.getEvidence (g : GaussProc d) : List ((Fin d → ℝ) × ℝ) := List.ofFn fun i => (g.inputs i, g.outputs i)

/-- `hp_sample_size`, GaussianCluster.h:32. -/
def clusterSampleSize : ℕ := 500

/-- `generateHyperparameterSamples` for `m` samples, GaussianProcess.cpp:169-215. -/
noncomputable def gpSamplesOf (env : GaussEnv) (m r d : ℕ) (sigma lo hi : ℝ) : List ℝ × List ℝ × (Fin d → List ℝ) :=
  (env.shuffle r 0 (realGrid lo hi m),
   env.shuffle r 1 (realGrid sigma (gpThetaMax sigma lo hi) m),
   fun k => env.shuffle r (2 + k) (realGrid 0 (5 + max 0 (Real.log (gpThetaMax sigma lo hi))) m))

/-- Replacing the scores, GaussianCluster.cpp:92-94. -/
def setScores {n : ℕ} (scores : List ℝ) (hypers : List (GaussHyper d n)) : List (GaussHyper d n) :=
  hypers.zipWith (fun h s => { h with score := s }) scores

/-- The hyperparameters of all clusters after evidence was added, GaussianCluster.cpp:72-100. With real numbers the sums are never infinite or not
a number. -/
noncomputable def tuneClusters (env : GaussEnv) (sigma : ℝ) (r : ℕ) (lo hi : ℝ) (clusters : List (GaussProc d)) : List (GaussProc d) :=
  let samples := gpSamplesOf env clusterSampleSize r d sigma lo hi
  let clusters := clusters.map fun g => { g with hypers := gpSetHyperparameters env sigma g.inputs g.outputs samples }
  let combined := (List.range clusterSampleSize).map fun i : ℕ =>
    (clusters.map fun g => (g.hypers.map GaussHyper.score).getD i 0).sum
  let clusters := clusters.map fun g => { g with hypers := setScores combined g.hypers }
  clusters.map fun g => { g with hypers := gpNormalize env g.hypers }

/-- `addEvidence`, GaussianCluster.cpp:48-101. -/
noncomputable def GaussCluster.addEvidence (env : GaussEnv) (sigma : ℝ) (c : GaussCluster d) (x : List Int) (y : Fin d → ℝ) (output : ℝ) :
    Outcome (GaussCluster d) :=
  (getClusterIndex c.dims x).bind fun idx =>
    let ext : ℝ × ℝ × Option (List Int × (Fin d → ℝ)) :=
      if c.numEvidence = 0 then (output, output, some (x, y))
      else if output < c.evidenceMin then (output, c.evidenceMax, c.evidenceMaxVector)
      else if output > c.evidenceMax then (c.evidenceMin, output, some (x, y))
      else (c.evidenceMin, c.evidenceMax, c.evidenceMaxVector)
    .ok { c with
      clusters := tuneClusters env sigma c.draws ext.1 ext.2.1 (c.clusters.modify idx fun g => g.addUntuned y output)
      evidenceMin := ext.1, evidenceMax := ext.2.1, evidenceMaxVector := ext.2.2
      numEvidence := c.numEvidence + 1, draws := c.draws + 1 }

/-- `getEvidenceMax`, GaussianCluster.cpp:108-114. -/
def GaussCluster.getEvidenceMax (c : GaussCluster d) : Outcome (Option (List Int × (Fin d → ℝ))) :=
  if c.numEvidence = 0 then .throws else .ok c.evidenceMaxVector

/-- `predictOutputPDF`, GaussianProcess.cpp:133-137, and `predictOutputScaledPDF`, :139-144; `normalScale` is 1 / sqrt(2 pi), /repo/src/autopas/utils/Math.h. -/
noncomputable def GaussProc.outputPDF (g : GaussProc d) (x : Fin d → ℝ) (output : ℝ) : ℝ := Verif.outputPDF (g.predictMean x) (g.predictVar x) output
noncomputable def GaussProc.outputScaledPDF (g : GaussProc d) (x : Fin d → ℝ) (output : ℝ) : ℝ :=
  normalPDF ((g.predictMean x - output) / Real.sqrt (g.predictVar x)) / (1 / Real.sqrt (2 * Real.pi))

/-- The initial weight of neighbour `nb` for the cluster `own`, GaussianCluster.cpp:351-381: geometric means. -/
noncomputable def initialWeight (wf : ClusterWeight) (own nb : GaussProc d) : ℝ :=
  match wf with
  | .evidenceMatchingProbabilityGM => (∏ e, own.outputPDF (nb.inputs e) (nb.outputs e)) ^ ((1 : ℝ) / nb.n)
  | .evidenceMatchingScaledProbabilityGM => (∏ e, own.outputScaledPDF (nb.inputs e) (nb.outputs e)) ^ ((1 : ℝ) / nb.n)
  | .wasserstein2 => 0

/-- The weight for one continuous vector, `updateNeighbourWeights`, GaussianCluster.cpp:390-410. -/
noncomputable def updatedWeight (wf : ClusterWeight) (own nb : GaussProc d) (s : Fin d → ℝ) (prior weight : ℝ) : ℝ :=
  match wf with
  | .evidenceMatchingProbabilityGM => weight
  | .evidenceMatchingScaledProbabilityGM => weight
  | .wasserstein2 =>
    own.predictVar s / (own.predictVar s + (nb.predictMean s - own.predictMean s) ^ 2 +
      (Real.sqrt (nb.predictVar s) - Real.sqrt (own.predictVar s)) ^ 2) * prior

/-- The list for one cluster of `initNeighbourWeights`, GaussianCluster.cpp:342-384: index, prior weight and weight. -/
noncomputable def neighbourList (wf : ClusterWeight) (c : GaussCluster d) (own : GaussProc d) : List (List Int × ℝ) → Outcome (List (ℕ × ℝ × ℝ))
  | [] => .ok []
  | (n, prior) :: rest =>
    (getClusterIndex c.dims n).bind fun idx =>
      (neighbourList wf c own rest).bind fun l =>
        match c.clusters[idx]? with
        | none => .ub
        | some nb => if nb.n > 0 then .ok ((idx, prior, prior * initialWeight wf own nb) :: l) else .ok l

/-- `initNeighbourWeights`, GaussianCluster.cpp:335-388, for the given clusters and their vectors. -/
noncomputable def neighbourLists (wf : ClusterWeight) (c : GaussCluster d) (nf : List Int → List (List Int × ℝ)) :
    List (GaussProc d × List Int) → Outcome (List (List (ℕ × ℝ × ℝ)))
  | [] => .ok []
  | (own, v) :: rest => (neighbourList wf c own (nf v)).bind fun l => (neighbourLists wf c nf rest).bind fun ls => .ok (l :: ls)

/-- The acquisition of one cluster without its neighbours, `precalculateAcquisitions`, GaussianCluster.cpp:322-333. -/
noncomputable def GaussCluster.ownAcquisition (c : GaussCluster d) (af : AcqFunction) (g : GaussProc d) (s : Fin d → ℝ) : ℝ :=
  calcAcquisition af (g.predictMean s) (g.predictVar s) c.evidenceMax

/-- The acquisition considering neighbours, GaussianCluster.cpp:133-146. -/
noncomputable def GaussCluster.mixAcquisition (c : GaussCluster d) (wf : ClusterWeight) (af : AcqFunction) (own : GaussProc d)
    (ns : List (ℕ × ℝ × ℝ)) (s : Fin d → ℝ) : ℝ :=
  let weighted := ns.filterMap fun p => c.clusters[p.1]?.map fun nb => (c.ownAcquisition af nb s, updatedWeight wf own nb s p.2.1 p.2.2)
  weighted.foldl (fun acc p => acc + p.1 * p.2) (c.ownAcquisition af own s) / weighted.foldl (fun acc p => acc + p.2) 1

/-- `isApprox` of Eigen, for real vectors with the precision of double. -/
def vecApprox (a b : Fin d → ℝ) : Prop := ∑ i, (a i - b i) ^ 2 ≤ (1 / 10 ^ 12) ^ 2 * min (∑ i, a i ^ 2) (∑ i, b i ^ 2)

open Classical in
/-- The loop over the clusters for one continuous vector, GaussianCluster.cpp:132-158, with what has been found so far. -/
noncomputable def acquisitionLoop (c : GaussCluster d) (wf : ClusterWeight) (af : AcqFunction) (s : Fin d → ℝ)
    (acc : List ((List Int × (Fin d → ℝ)) × ℝ)) : List ((GaussProc d × List Int) × List (ℕ × ℝ × ℝ)) → List ((List Int × (Fin d → ℝ)) × ℝ)
  | [] => acc
  | ((own, v), ns) :: rest =>
    if ∃ a ∈ acc, v = a.1.1 ∧ vecApprox s a.1.2 then acquisitionLoop c wf af s acc rest
    else acquisitionLoop c wf af s (acc ++ [((v, s), c.mixAcquisition wf af own ns s)]) rest

/-- `sampleAcquisition`, GaussianCluster.cpp:116-164. -/
noncomputable def GaussCluster.sampleAcquisition (c : GaussCluster d) (wf : ClusterWeight) (af : AcqFunction)
    (nf : List Int → List (List Int × ℝ)) (samples : List (Fin d → ℝ)) : Outcome (List ((List Int × (Fin d → ℝ)) × ℝ)) :=
  (neighbourLists wf c nf (c.clusters.zip c.vectors)).bind fun nss =>
    .ok (samples.foldl (fun acc s => acquisitionLoop c wf af s acc ((c.clusters.zip c.vectors).zip nss)) [])

/-- `std::max_element`: the first of the greatest. -/
noncomputable def maxElement {X : Type} (val : X → ℝ) : X → List X → X
  | best, [] => best
  | best, x :: xs => if val best < val x then maxElement val x xs else maxElement val best xs

/-- `sampleAcquisitionMax`, GaussianCluster.cpp:188-202; `*` of the end of an empty vector is undefined. -/
noncomputable def GaussCluster.sampleAcquisitionMax (c : GaussCluster d) (wf : ClusterWeight) (af : AcqFunction)
    (nf : List Int → List (List Int × ℝ)) (samples : List (Fin d → ℝ)) : Outcome ((List Int × (Fin d → ℝ)) × ℝ) :=
  (c.sampleAcquisition wf af nf samples).bind fun l =>
    match l with
    | [] => .ub
    | x :: xs => .ok (maxElement Prod.snd x xs)

/-- `sampleOrderedByAcquisition`, GaussianCluster.cpp:204-227; `sort` is `std::sort` by the acquisition. -/
noncomputable def GaussCluster.sampleOrdered (sort : List ((List Int × (Fin d → ℝ)) × ℝ) → List ((List Int × (Fin d → ℝ)) × ℝ))
    (c : GaussCluster d) (wf : ClusterWeight) (af : AcqFunction) (nf : List Int → List (List Int × ℝ)) (samples : List (Fin d → ℝ)) :
    Outcome (List (List Int × (Fin d → ℝ))) :=
  (c.sampleAcquisition wf af nf samples).bind fun l => .ok ((sort l).map Prod.fst)

/-- What can happen to a cluster. -/
inductive ClusterAction (d : ℕ)
  | setDimensions (dims : List Int)
  | clear
  | addEvidence (x : List Int) (y : Fin d → ℝ) (output : ℝ)

noncomputable def GaussCluster.step (env : GaussEnv) (sigma : ℝ) (c : GaussCluster d) : ClusterAction d → Outcome (GaussCluster d)
  | .setDimensions dims => c.setDimensions env sigma dims
  | .clear => .ok (c.clear env sigma)
  | .addEvidence x y o => c.addEvidence env sigma x y o

/-- A history without exceptions. -/
noncomputable def GaussCluster.steps (env : GaussEnv) (sigma : ℝ) : List (ClusterAction d) → GaussCluster d → Outcome (GaussCluster d)
  | [], c => .ok c
  | a :: as, c => (c.step env sigma a).bind (GaussCluster.steps env sigma as)

noncomputable def GaussCluster.run (env : GaussEnv) (sigma : ℝ) (dims : List Int) (as : List (ClusterAction d)) : Outcome (GaussCluster d) :=
  (GaussCluster.init env sigma dims).bind (GaussCluster.steps env sigma as)

end Verif
