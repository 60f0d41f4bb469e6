import Mathlib.Analysis.SpecialFunctions.Exp
import Mathlib.Analysis.SpecialFunctions.Log.Basic
import Mathlib.Analysis.Real.Sqrt
import Mathlib.LinearAlgebra.Matrix.NonsingularInverse
import Mathlib.Data.Fin.Tuple.Basic
/-!
Model of /repo/src/autopas/tuning/tuningStrategy/GaussianModel/GaussianProcess.{h,cpp} and GaussianHyperparameters.{h,cpp}, with real numbers instead of
doubles. Vectors have the dimension of the process by type, so the exceptions for other dimensions cannot occur.

What is random or left open by the standard is a parameter (`GaussEnv`): shuffling permutes, sorting sorts, and the Cholesky decomposition is any that is
one.
-/
namespace Verif

/-- `std::shuffle` of the `i`-th set of numbers when hyperparameters are drawn for the `r`-th time, `std::sort` by descending score,
GaussianProcess.cpp:241-243 (given the scores of the elements, sorts their positions), and the Cholesky decomposition of Eigen. -/
structure GaussEnv where
  shuffle : ℕ → ℕ → List ℝ → List ℝ
  sort : List ℝ → List ℕ
  cholesky : ∀ {n : ℕ}, Matrix (Fin n) (Fin n) ℝ → Matrix (Fin n) (Fin n) ℝ

/-- `GaussianHyperparameters`, GaussianHyperparameters.h:15-86, after `n` evidences in `d` dimensions. -/
structure GaussHyper (d n : ℕ) where
  score : ℝ
  mean : ℝ
  theta : ℝ
  dimScales : Fin d → ℝ
  covMatInv : Matrix (Fin n) (Fin n) ℝ
  weights : Fin n → ℝ

/-- `GaussianProcess::kernel`, GaussianProcess.cpp:288-298. -/
noncomputable def gpKernel {d : ℕ} (input1 input2 : Fin d → ℝ) (theta : ℝ) (dimScale : Fin d → ℝ) : ℝ :=
  theta * Real.exp (-(∑ i, (input1 i - input2 i) * ((input1 i - input2 i) * dimScale i)))

/-- `covMat`, GaussianHyperparameters.cpp:36-43. -/
noncomputable def gpCovMat {d n : ℕ} (sigma : ℝ) (inputs : Fin n → Fin d → ℝ) (theta : ℝ) (dimScales : Fin d → ℝ) : Matrix (Fin n) (Fin n) ℝ :=
  fun i j =>
    if i = j then gpKernel (inputs i) (inputs i) theta dimScales + sigma
    else if i < j then gpKernel (inputs i) (inputs j) theta dimScales
    else gpKernel (inputs j) (inputs i) theta dimScales

/-- `precalculate`, GaussianHyperparameters.cpp:29-61; `llt.solve(Identity)` is the inverse. -/
noncomputable def gpPrecalculate {d n : ℕ} (env : GaussEnv) (sigma : ℝ) (inputs : Fin n → Fin d → ℝ) (outputs : Fin n → ℝ) (mean theta : ℝ)
    (dimScales : Fin d → ℝ) : GaussHyper d n :=
  let outputCentered : Fin n → ℝ := fun i => outputs i - mean
  let covMat := gpCovMat sigma inputs theta dimScales
  let l := env.cholesky covMat
  let covMatInv := covMat⁻¹
  let weights := covMatInv.mulVec outputCentered
  { score := Real.exp (-(1 / 2) * ∑ i, outputCentered i * weights i) / ∏ i, l i i
    mean := mean, theta := theta, dimScales := dimScales, covMatInv := covMatInv, weights := weights }

/-- `NumberInterval::uniformSample` without the shuffling at the end, /repo/src/autopas/utils/NumberInterval.h:90-108. -/
noncomputable def realGrid (lo hi : ℝ) (n : ℕ) : List ℝ :=
  if n = 0 then []
  else if n = 1 then [(hi + lo) / 2]
  else (List.range (n - 1)).map (fun i : ℕ => lo + (hi - lo) / ((n - 1 : ℕ) : ℝ) * (i : ℝ)) ++ [hi]

/-- `hp_sample_size` and `hp_size`, GaussianProcess.h:36-38. -/
def gpSampleSize : ℕ := 10000
def gpHyperSize : ℕ := 100

/-- `thetaMax`, GaussianProcess.cpp:177-184. -/
noncomputable def gpThetaMax (sigma lo hi : ℝ) : ℝ := max ((max (max (hi - lo) |lo|) |hi|) ^ 2) sigma

/-- `generateHyperparameterSamples`, GaussianProcess.cpp:169-216: means, thetas and, for each dimension, scales. The interval of the scales begins at 0. -/
noncomputable def gpSamples (env : GaussEnv) (r d : ℕ) (sigma lo hi : ℝ) : List ℝ × List ℝ × (Fin d → List ℝ) :=
  (env.shuffle r 0 (realGrid lo hi gpSampleSize),
   env.shuffle r 1 (realGrid sigma (gpThetaMax sigma lo hi) gpSampleSize),
   fun k => env.shuffle r (2 + k) (realGrid 0 (5 + max 0 (Real.log (gpThetaMax sigma lo hi))) gpSampleSize))

/-- `setHyperparameters`, GaussianProcess.cpp:220-238. -/
noncomputable def gpSetHyperparameters {d n : ℕ} (env : GaussEnv) (sigma : ℝ) (inputs : Fin n → Fin d → ℝ) (outputs : Fin n → ℝ)
    (s : List ℝ × List ℝ × (Fin d → List ℝ)) : List (GaussHyper d n) :=
  (List.range s.1.length).map fun t => gpPrecalculate env sigma inputs outputs (s.1.getD t 0) (s.2.1.getD t 0) fun k => (s.2.2 k).getD t 0

/-- `normalizeHyperparameters`, GaussianProcess.cpp:240-266. -/
noncomputable def gpNormalize {d n : ℕ} (env : GaussEnv) (hypers : List (GaussHyper d n)) : List (GaussHyper d n) :=
  let sorted := (env.sort (hypers.map GaussHyper.score)).filterMap fun i => hypers[i]?
  let kept := sorted.take gpHyperSize
  let scoreSum := (kept.map GaussHyper.score).sum
  if scoreSum > 0 then kept.map fun h => { h with score := h.score / scoreSum }
  else kept.map fun h => { h with score := 1 / (kept.length : ℝ) }

/-- The members of `GaussianProcess`, GaussianProcess.h:213-244; `_sigma` is a parameter of the functions. `tunes`: how often hyperparameters were drawn. -/
structure GaussProc (d : ℕ) where
  n : ℕ
  inputs : Fin n → Fin d → ℝ
  outputs : Fin n → ℝ
  evidenceMin : ℝ
  evidenceMax : ℝ
  evidenceMaxVector : Option (Fin d → ℝ)
  hypers : List (GaussHyper d n)
  tunes : ℕ

variable {d : ℕ}

/-- `tuneHyperparameters`, GaussianProcess.cpp:268-286. -/
noncomputable def gpTune (env : GaussEnv) (sigma : ℝ) (r : ℕ) {n : ℕ} (inputs : Fin n → Fin d → ℝ) (outputs : Fin n → ℝ) (lo hi : ℝ) :
    List (GaussHyper d n) :=
  if n = 0 then [{ gpPrecalculate env sigma inputs outputs 0 1 (fun _ => 1) with score := 1 }]
  else gpNormalize env (gpSetHyperparameters env sigma inputs outputs (gpSamples env r d sigma lo hi))

/-- The process without evidence, whatever the extreme values are that are left over. -/
noncomputable def GaussProc.empty (env : GaussEnv) (sigma : ℝ) (lo hi : ℝ) (v : Option (Fin d → ℝ)) (r : ℕ) : GaussProc d :=
  { n := 0, inputs := Fin.elim0, outputs := Fin.elim0, evidenceMin := lo, evidenceMax := hi, evidenceMaxVector := v
    hypers := gpTune env sigma r Fin.elim0 Fin.elim0 lo hi, tunes := r + 1 }

/-- The constructor, GaussianProcess.cpp:11-21. -/
noncomputable def GaussProc.init (env : GaussEnv) (sigma : ℝ) : GaussProc d := GaussProc.empty env sigma 0 0 none 0

/-- `clear`, GaussianProcess.cpp:30-34. -/
noncomputable def GaussProc.clear (env : GaussEnv) (sigma : ℝ) (g : GaussProc d) : GaussProc d :=
  GaussProc.empty env sigma g.evidenceMin g.evidenceMax g.evidenceMaxVector g.tunes

/-- `addEvidence(input, output, true)`, GaussianProcess.cpp:43-74. -/
noncomputable def GaussProc.addEvidence (env : GaussEnv) (sigma : ℝ) (g : GaussProc d) (input : Fin d → ℝ) (output : ℝ) : GaussProc d :=
  let ext : ℝ × ℝ × Option (Fin d → ℝ) :=
    if g.n = 0 then (output, output, some input)
    else if output < g.evidenceMin then (output, g.evidenceMax, g.evidenceMaxVector)
    else if output > g.evidenceMax then (g.evidenceMin, output, some input)
    else (g.evidenceMin, g.evidenceMax, g.evidenceMaxVector)
  { n := g.n + 1, inputs := Fin.snoc (α := fun _ => Fin d → ℝ) g.inputs input, outputs := Fin.snoc (α := fun _ => ℝ) g.outputs output
    evidenceMin := ext.1, evidenceMax := ext.2.1, evidenceMaxVector := ext.2.2
    hypers := gpTune env sigma g.tunes (Fin.snoc (α := fun _ => Fin d → ℝ) g.inputs input) (Fin.snoc (α := fun _ => ℝ) g.outputs output) ext.1 ext.2.1
    tunes := g.tunes + 1 }

/-- The summand of `predictMean` for one set of hyperparameters, GaussianProcess.cpp:91-101 and `kernelVector`, :300-308. -/
noncomputable def gpHyperMean {n : ℕ} (inputs : Fin n → Fin d → ℝ) (h : GaussHyper d n) (x : Fin d → ℝ) : ℝ :=
  if n = 0 then h.mean else h.mean + ∑ i, gpKernel x (inputs i) h.theta h.dimScales * h.weights i

/-- The summand of `predictVar` for one set of hyperparameters, GaussianProcess.cpp:119-129. -/
noncomputable def gpHyperVar {n : ℕ} (inputs : Fin n → Fin d → ℝ) (h : GaussHyper d n) (x : Fin d → ℝ) : ℝ :=
  if n = 0 then h.theta
  else gpKernel x x h.theta h.dimScales -
    ∑ i, gpKernel x (inputs i) h.theta h.dimScales * h.covMatInv.mulVec (fun j => gpKernel x (inputs j) h.theta h.dimScales) i

/-- `predictMean`, GaussianProcess.cpp:84-103. -/
noncomputable def GaussProc.predictMean (g : GaussProc d) (x : Fin d → ℝ) : ℝ := (g.hypers.map fun h => h.score * gpHyperMean g.inputs h x).sum

/-- `getDefaultVar`, GaussianProcess.cpp:105-111. -/
noncomputable def GaussProc.defaultVar (g : GaussProc d) : ℝ := (g.hypers.map fun h => h.score * h.theta).sum

/-- `predictVar`, GaussianProcess.cpp:113-131. -/
noncomputable def GaussProc.predictVar (g : GaussProc d) (x : Fin d → ℝ) : ℝ := (g.hypers.map fun h => h.score * gpHyperVar g.inputs h x).sum

/-- What can happen to a process. -/
inductive GaussAction (d : ℕ)
  | clear
  | addEvidence (input : Fin d → ℝ) (output : ℝ)

noncomputable def GaussProc.step (env : GaussEnv) (sigma : ℝ) (g : GaussProc d) : GaussAction d → GaussProc d
  | .clear => g.clear env sigma
  | .addEvidence x y => g.addEvidence env sigma x y

/-- A history. -/
noncomputable def GaussProc.run (env : GaussEnv) (sigma : ℝ) (as : List (GaussAction d)) : GaussProc d :=
  as.foldl (GaussProc.step env sigma) (GaussProc.init env sigma)

end Verif
