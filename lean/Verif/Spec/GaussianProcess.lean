import Verif.Model.GaussianProcess
import Mathlib.LinearAlgebra.Matrix.NonsingularInverse
import Mathlib.Analysis.SpecialFunctions.Exp
import Mathlib.Analysis.Real.Sqrt
/-! Prediction of a random function from noisy observations. -/
namespace Verif.Spec

/-- A random function has covariance `cov`; observations at `inputs` have noise of variance `sigma`. The expected squared error of predicting the value at
`x`, relative to the mean, by the weighted sum of the observations with weights `a`. -/
def linearError {X : Type} {n : ℕ} (cov : X → X → ℝ) (sigma : ℝ) (inputs : Fin n → X) (x : X) (a : Fin n → ℝ) : ℝ :=
  cov x x - 2 * ∑ i, a i * cov x (inputs i) + ∑ i, ∑ j, a i * a j * (cov (inputs i) (inputs j) + if i = j then sigma else 0)

/-- `a` are the only weights with the smallest expected squared error. -/
def BestWeights {X : Type} {n : ℕ} (cov : X → X → ℝ) (sigma : ℝ) (inputs : Fin n → X) (x : X) (a : Fin n → ℝ) : Prop :=
  ∀ b, b ≠ a → linearError cov sigma inputs x a < linearError cov sigma inputs x b

/-- The squared exponential covariance. -/
noncomputable def sqExp {d : ℕ} (theta : ℝ) (scale : Fin d → ℝ) (x y : Fin d → ℝ) : ℝ := theta * Real.exp (-∑ k, scale k * (x k - y k) ^ 2)

/-- The density of a normal distribution with covariance matrix `A` at distance `r` from its mean, without the factor that only depends on the number of
observations. -/
noncomputable def normalLikelihood {n : ℕ} (A : Matrix (Fin n) (Fin n) ℝ) (r : Fin n → ℝ) : ℝ :=
  Real.exp (-(1 / 2) * ∑ i, r i * (A⁻¹.mulVec r) i) / Real.sqrt A.det

/-- Covariance matrix of the observations. -/
def obsCov {X : Type} {n : ℕ} (cov : X → X → ℝ) (sigma : ℝ) (inputs : Fin n → X) : Matrix (Fin n) (Fin n) ℝ :=
  fun i j => cov (inputs i) (inputs j) + if i = j then sigma else 0

/-- `L` is a Cholesky decomposition of `A`. -/
def IsCholesky {n : ℕ} (A L : Matrix (Fin n) (Fin n) ℝ) : Prop :=
  L * L.transpose = A ∧ (∀ i j, i < j → L i j = 0) ∧ ∀ i, 0 < L i i

/-- The observations since the last time everything was forgotten. -/
def observed {d : ℕ} : List (GaussAction d) → List ((Fin d → ℝ) × ℝ) :=
  List.foldl (fun acc a => match a with
    | .clear => []
    | .addEvidence x y => acc ++ [(x, y)]) []

/-- The variance of a mixture of distributions, given their weights, means and variances. -/
def mixtureVariance (parts : List (ℝ × ℝ × ℝ)) : ℝ :=
  (parts.map fun p => p.1 * (p.2.2 + p.2.1 ^ 2)).sum - (parts.map fun p => p.1 * p.2.1).sum ^ 2

end Verif.Spec
