import Verif.Model.GaussianCluster
/-! Discrete vectors, and the evidence of a history. -/
namespace Verif.Spec

/-- Every entry is at least 0 and less than the given number. -/
def InBounds : List Int → List Int → Prop := List.Forall₂ fun r v => 0 ≤ v ∧ v < r

/-- A history in which all dimensions are positive and all discrete inputs within the dimensions at the time. -/
def ProperHistory {d : ℕ} : List Int → List (ClusterAction d) → Prop
  | dims, [] => ∀ r ∈ dims, 0 < r
  | dims, .setDimensions new :: as => (∀ r ∈ dims, 0 < r) ∧ ProperHistory new as
  | dims, .clear :: as => ProperHistory dims as
  | dims, .addEvidence x _ _ :: as => InBounds dims x ∧ ProperHistory dims as

/-- The dimensions after a history. -/
def clusterDims {d : ℕ} (dims : List Int) : List (ClusterAction d) → List Int :=
  List.foldl (fun acc a => match a with
    | .setDimensions new => new
    | _ => acc) dims

/-- The evidence since the dimensions were set. -/
def sinceDimensions {d : ℕ} : List (ClusterAction d) → List ((List Int × (Fin d → ℝ)) × ℝ) :=
  List.foldl (fun acc a => match a with
    | .setDimensions _ => []
    | .clear => acc
    | .addEvidence x y o => acc ++ [((x, y), o)]) []

/-- The evidence since the dimensions were set or everything was discarded. -/
def sinceClear {d : ℕ} : List (ClusterAction d) → List ((List Int × (Fin d → ℝ)) × ℝ) :=
  List.foldl (fun acc a => match a with
    | .setDimensions _ => []
    | .clear => []
    | .addEvidence x y o => acc ++ [((x, y), o)]) []

/-- The evidence for one discrete vector. -/
def evidenceFor {d : ℕ} (x : List Int) (l : List ((List Int × (Fin d → ℝ)) × ℝ)) : List ((Fin d → ℝ) × ℝ) :=
  l.filterMap fun e => if e.1.1 = x then some (e.1.2, e.2) else none

/-- The weighted mean of a value with weight 1 and of others. -/
noncomputable def weightedMean (own : ℝ) (others : List (ℝ × ℝ)) : ℝ := (own + (others.map fun p => p.1 * p.2).sum) / (1 + (others.map Prod.snd).sum)

/-- The square of the Wasserstein distance of two normal distributions, given their means and variances. -/
noncomputable def wassersteinSq (m v m' v' : ℝ) : ℝ := (m - m') ^ 2 + (Real.sqrt v - Real.sqrt v') ^ 2

/-- How well a cluster agrees with a neighbour: the geometric mean of the densities it gives to what the neighbour has observed, the same relative to the
greatest density, or how small the distance of the predictions is compared to the own variance. -/
noncomputable def agreement {d : ℕ} (wf : ClusterWeight) (own nb : GaussProc d) (s : Fin d → ℝ) : ℝ :=
  match wf with
  | .evidenceMatchingProbabilityGM =>
    (nb.getEvidence.map fun e => ProbabilityTheory.gaussianPDFReal (own.predictMean e.1) (own.predictVar e.1).toNNReal e.2).prod ^ (1 / (nb.getEvidence.length : ℝ))
  | .evidenceMatchingScaledProbabilityGM =>
    (nb.getEvidence.map fun e => Real.exp (-(e.2 - own.predictMean e.1) ^ 2 / (2 * own.predictVar e.1))).prod ^ (1 / (nb.getEvidence.length : ℝ))
  | .wasserstein2 => own.predictVar s / (own.predictVar s + wassersteinSq (own.predictMean s) (own.predictVar s) (nb.predictMean s) (nb.predictVar s))

end Verif.Spec
