import Verif.Lemmas.GaussianClusterSample
import Verif.Lemmas.Cholesky
/-!
# C120 — Gaussian processes for discrete and continuous inputs

* `C120_runs`: which histories end in an exception.
* `C120_clusters`: there is one process for each discrete vector.
* `C120_evidence_partial`: each process knows the evidence for its vector. Partial: since the dimensions were set; `clear` does not discard it.
* **Violation** `C120_violated_clear`: `clear` is documented to discard all evidence. Everything is predicted as before, although the number of evidence is 0.
* `C120_extremes`: the number of evidence, and the input of the greatest.
* `C120_prediction`, `C120_likelihood`: predictions are proper, and how hyperparameters are weighted: by the sum of the likelihoods of the processes.
* `C120_samples`, `C120_mixture`, `C120_between`: all vectors are sampled once, and the value is a mean of what the process and its neighbours predict.
* `C120_best`, `C120_ordered`: the best sample and the order.
-/
namespace Verif
open Spec

section
variable {d : ℕ} {env : GaussEnv} {sigma : ℝ}

/-- A history ends in an exception exactly if dimensions are not positive or a discrete input is out of bounds. -/
theorem C120_runs (dims : List Int) (as : List (ClusterAction d)) :
    (ProperHistory dims as → ∃ c : GaussCluster d, GaussCluster.run env sigma dims as = .ok c) ∧
      (¬ ProperHistory dims as → GaussCluster.run (d := d) env sigma dims as = .throws) := by
  have hinit : ∀ (dims : List Int) (c : GaussCluster d), ((∀ r ∈ dims, 0 < r) → ∃ c', GaussCluster.initClusters env sigma { c with dims := dims } = .ok c') ∧
      (¬ (∀ r ∈ dims, 0 < r) → GaussCluster.initClusters env sigma { c with dims := dims } = .throws) := by
    intro dims c
    unfold GaussCluster.initClusters
    constructor
    · intro h
      rw [numClusters_spec, if_pos h]
      exact ⟨_, rfl⟩
    · intro h
      rw [numClusters_spec, if_neg h]
      rfl
  have proper_pos : ∀ (as : List (ClusterAction d)) (dims : List Int), ProperHistory dims as → ∀ r ∈ dims, 0 < r := by
    intro as
    induction as with
    | nil => intro dims h; exact h
    | cons a as ih =>
      intro dims h
      cases a with
      | setDimensions new => exact h.1
      | clear => exact ih dims h
      | addEvidence x y o => exact ih dims h.2
  have gen : ∀ (as : List (ClusterAction d)) (dims : List Int) (c0 : GaussCluster d) (obs recent : List ((List Int × (Fin d → ℝ)) × ℝ)),
      c0.Knows env sigma dims obs recent →
      (ProperHistory dims as → ∃ c, GaussCluster.steps env sigma as c0 = .ok c) ∧
      (¬ ProperHistory dims as → GaussCluster.steps env sigma as c0 = .throws) := by
    intro as
    induction as with
    | nil => intro dims c0 obs recent hk; exact ⟨fun _ => ⟨c0, rfl⟩, fun h => absurd hk.pos h⟩
    | cons a as ih =>
      intro dims c0 obs recent hk
      unfold GaussCluster.steps
      cases a with
      | setDimensions new =>
        constructor
        · rintro ⟨-, h⟩
          obtain ⟨c1, h1⟩ := (hinit new c0).1 (proper_pos as new h)
          have h2 : c0.step env sigma (.setDimensions new) = .ok c1 := h1
          rw [h2]
          exact (ih new c1 [] [] (init_knows h1)).1 h
        · intro h
          have h : ¬ ProperHistory new as := fun h' => h ⟨hk.pos, h'⟩
          by_cases hp : ∀ r ∈ new, 0 < r
          · obtain ⟨c1, h1⟩ := (hinit new c0).1 hp
            have h2 : c0.step env sigma (.setDimensions new) = .ok c1 := h1
            rw [h2]
            exact (ih new c1 [] [] (init_knows h1)).2 h
          · have h2 : c0.step env sigma (.setDimensions new) = .throws := (hinit new c0).2 hp
            rw [h2]
            rfl
      | clear => exact ih dims _ obs [] (clear_knows hk)
      | addEvidence x y o =>
        by_cases hb : InBounds dims x
        · obtain ⟨k, hidx⟩ := getClusterIndex_iff.2 hb
          obtain ⟨c1, h1⟩ : ∃ c1, c0.addEvidence env sigma x y o = .ok c1 := by
            unfold GaussCluster.addEvidence
            rw [hk.dims_eq, hidx]
            exact ⟨_, rfl⟩
          have h2 : c0.step env sigma (.addEvidence x y o) = .ok c1 := h1
          rw [h2]
          obtain ⟨i1, i2⟩ := ih dims c1 _ _ (addEvidence_cluster_knows hk h1)
          exact ⟨fun h => i1 h.2, fun h => i2 fun h' => h ⟨hb, h'⟩⟩
        · refine ⟨fun h => absurd h.1 hb, fun _ => ?_⟩
          have h2 : c0.step env sigma (.addEvidence x y o) = .throws := by
            show c0.addEvidence env sigma x y o = .throws
            unfold GaussCluster.addEvidence
            rw [hk.dims_eq, getClusterIndex_throws hb]
            rfl
          rw [h2]
          rfl
  unfold GaussCluster.run GaussCluster.init
  constructor
  · intro h
    obtain ⟨c0, h0⟩ := (hinit dims ⟨dims, [], [], 0, 0, none, 0, 0⟩).1 (proper_pos as dims h)
    rw [h0]
    exact (gen as dims c0 [] [] (init_knows h0)).1 h
  · intro h
    by_cases hp : ∀ r ∈ dims, 0 < r
    · obtain ⟨c0, h0⟩ := (hinit dims ⟨dims, [], [], 0, 0, none, 0, 0⟩).1 hp
      rw [h0]
      exact (gen as dims c0 [] [] (init_knows h0)).2 h
    · have h2 := (hinit dims ⟨dims, [], [], 0, 0, none, 0, 0⟩).2 hp
      rw [h2]
      rfl

/-- There is one process for each discrete vector, and it is found by the vector. -/
theorem C120_clusters {dims : List Int} {as : List (ClusterAction d)} {c : GaussCluster d} (h : GaussCluster.run env sigma dims as = .ok c) :
    c.dims = clusterDims dims as ∧ c.vectors.Nodup ∧ (∀ x, x ∈ c.vectors ↔ InBounds (clusterDims dims as) x) ∧ c.clusters.length = c.vectors.length ∧
      ∀ k x, c.vectors[k]? = some x ↔ getClusterIndex c.dims x = .ok k := by
  have hk := cluster_run_knows h
  rw [hk.vectors, hk.dims_eq, hk.length, allVectors_length hk.pos]
  exact ⟨rfl, allVectors_nodup hk.pos, fun x => allVectors_mem hk.pos, rfl, fun k x => allVectors_get hk.pos⟩

/-- Each process knows the evidence for its vector, in order. -/
theorem C120_evidence_partial {dims : List Int} {as : List (ClusterAction d)} {c : GaussCluster d} (h : GaussCluster.run env sigma dims as = .ok c)
    {k : ℕ} {g : GaussProc d} {x : List Int} (hg : c.clusters[k]? = some g) (hx : c.vectors[k]? = some x) :
    g.getEvidence = evidenceFor x (sinceDimensions as) := by
  have hk := cluster_run_knows h
  have he := congrArg (fun l => l[k]?) hk.evidence
  simp only [List.getElem?_map, hg, Option.map_some] at he
  rw [hk.vectors] at hx
  rw [hx] at he
  simpa using he

/-- The number of evidence, and the input of the first with the greatest output. -/
theorem C120_extremes {dims : List Int} {as : List (ClusterAction d)} {c : GaussCluster d} (h : GaussCluster.run env sigma dims as = .ok c) :
    c.numEvidence = (sinceClear as).length ∧ (sinceClear as = [] → c.getEvidenceMax = .throws) ∧
      (sinceClear as ≠ [] → ∃ pre o post, sinceClear as = pre ++ o :: post ∧ c.getEvidenceMax = .ok (some o.1) ∧ c.evidenceMax = o.2 ∧
        (∀ q ∈ pre, q.2 < o.2) ∧ ∀ q ∈ post, q.2 ≤ o.2) := by
  have hk := cluster_run_knows h
  have hn := hk.num
  refine ⟨hn, fun he => ?_, fun hne => ?_⟩
  · unfold GaussCluster.getEvidenceMax
    rw [if_pos (by rw [hn, he]; rfl)]
  · obtain ⟨pre, o, post, e1, e2, e3, e4, e5⟩ := hk.greatest hne
    refine ⟨pre, o, post, e1, ?_, e2, e4, e5⟩
    unfold GaussCluster.getEvidenceMax
    rw [if_neg (by rw [hn]; simpa using hne), e3]

/-- The predictions of every process are proper: the weights of the sets of hyperparameters are positive with sum 1, each set predicts in the best linear way
(`BestWeights`), and the variance is positive. -/
theorem C120_prediction (henv : env.Ok) (hsig : 0 < sigma) {dims : List Int} {as : List (ClusterAction d)} {c : GaussCluster d}
    (h : GaussCluster.run env sigma dims as = .ok c) {g : GaussProc d} (hg : g ∈ c.clusters) (x : Fin d → ℝ) :
    (∀ hy ∈ g.hypers, 0 < hy.score) ∧ (g.hypers.map fun hy => hy.score).sum = 1 ∧ 0 < g.predictVar x ∧
      ∀ hy ∈ g.hypers, ∃ a, BestWeights (sqExp hy.theta hy.dimScales) sigma g.inputs x a ∧
        gpHyperMean g.inputs hy x = hy.mean + ∑ i, a i * (g.outputs i - hy.mean) ∧
        gpHyperVar g.inputs hy x = linearError (sqExp hy.theta hy.dimScales) sigma g.inputs x a := by
  have hok := (cluster_run_knows h).ok henv hsig g hg
  refine ⟨hok.score, hok.sum, predictVar_pos hsig hok x, fun hy hh => ?_⟩
  obtain ⟨a, a1, a2, a3, -⟩ := hyper_predict hsig hok hh x
  exact ⟨a, a1, a2, a3⟩

/-- After evidence was added, all processes use 100 of the same 500 sets of hyperparameters: those for which the sum of the likelihoods of what the
processes have observed is greatest, weighted by this sum. -/
theorem C120_likelihood (henv : env.Ok) (hsig : 0 < sigma) {dims : List Int} {as : List (ClusterAction d)} {c c' : GaussCluster d}
    (h : GaussCluster.run env sigma dims as = .ok c) {x : List Int} {y : Fin d → ℝ} {o : ℝ} (hadd : c.addEvidence env sigma x y o = .ok c') :
    let lik := fun (m th : ℝ) (sc : Fin d → ℝ) =>
      (c'.clusters.map fun g => normalLikelihood (obsCov (sqExp th sc) sigma g.inputs) fun i => g.outputs i - m).sum
    ∃ samples : List (ℝ × ℝ × (Fin d → ℝ)), samples.length = 500 ∧
      (∀ s ∈ samples, c'.evidenceMin ≤ s.1 ∧ s.1 ≤ c'.evidenceMax ∧ sigma ≤ s.2.1 ∧ ∀ k, 0 ≤ s.2.2 k) ∧
      ∀ g ∈ c'.clusters, g.hypers.length = 100 ∧
        (∀ hy ∈ g.hypers, (hy.mean, hy.theta, hy.dimScales) ∈ samples) ∧
        (∀ hy ∈ g.hypers, ∀ hy' ∈ g.hypers, hy.score * lik hy'.mean hy'.theta hy'.dimScales = hy'.score * lik hy.mean hy.theta hy.dimScales) ∧
        ∀ s ∈ samples, (∃ hy ∈ g.hypers, (hy.mean, hy.theta, hy.dimScales) = s) ∨
          ∀ hy ∈ g.hypers, lik s.1 s.2.1 s.2.2 ≤ lik hy.mean hy.theta hy.dimScales := by
  intro lik
  have hk := cluster_run_knows h
  have hk' := addEvidence_cluster_knows hk hadd
  have hlohi : c'.evidenceMin ≤ c'.evidenceMax := by
    obtain ⟨pre, q, post, e1, e2, -, -, -⟩ := hk'.greatest (by simp)
    rw [e2]
    exact (hk'.least (by simp)).2 q (by rw [e1]; simp)
  unfold GaussCluster.addEvidence at hadd
  obtain ⟨k, hidx, hadd⟩ := Outcome.bind_ok.1 hadd
  simp only [Outcome.ok.injEq] at hadd
  have hcl : c'.clusters = tuneClusters env sigma c.draws c'.evidenceMin c'.evidenceMax (c.clusters.modify k fun g => g.addUntuned y o) := by
    rw [← hadd]
  obtain ⟨gs, hgs⟩ : ∃ gs, gs = c.clusters.modify k fun g => g.addUntuned y o := ⟨_, rfl⟩
  obtain ⟨lo, hlo⟩ : ∃ lo, lo = c'.evidenceMin := ⟨_, rfl⟩
  obtain ⟨hi, hhi⟩ : ∃ hi, hi = c'.evidenceMax := ⟨_, rfl⟩
  rw [← hlo, ← hhi] at hlohi
  rw [← hgs, ← hlo, ← hhi, tuneClusters_eq henv hsig hlohi] at hcl
  have hlik : ∀ p : ℝ × ℝ × (Fin d → ℝ), lik p.1 p.2.1 p.2.2 = likSum sigma gs p := by
    intro p
    show (c'.clusters.map fun g => normalLikelihood (obsCov (sqExp p.2.1 p.2.2) sigma g.inputs) fun i => g.outputs i - p.1).sum = _
    rw [hcl, List.map_map]
    rfl
  refine ⟨(List.range clusterSampleSize).map (gpSampleOf env clusterSampleSize c.draws sigma lo hi), by simp [clusterSampleSize], ?_, ?_⟩
  · intro s hs
    obtain ⟨t, ht, rfl⟩ := List.mem_map.1 hs
    rw [← hlo, ← hhi]
    exact gpSampleOf_range henv hlohi _ _ (List.mem_range.1 ht)
  · intro g hg
    rw [hcl] at hg
    obtain ⟨g0, hg0, rfl⟩ := List.mem_map.1 hg
    obtain ⟨idx, Z, z1, z2, z3, z4, z5, z6, z7⟩ := normalized_spec henv hsig hlohi c.draws (List.ne_nil_of_mem hg0) g0
    simp only [z5]
    refine ⟨by rw [List.length_map, z2]; rfl, ?_, ?_, ?_⟩
    · intro hy hh
      obtain ⟨t, ht, rfl⟩ := List.mem_map.1 hh
      exact List.mem_map.2 ⟨t, List.mem_range.2 (z4 t ht), rfl⟩
    · intro hy hh hy' hh'
      obtain ⟨t, ht, rfl⟩ := List.mem_map.1 hh
      obtain ⟨t', ht', rfl⟩ := List.mem_map.1 hh'
      have e1 := hlik (gpSampleOf env clusterSampleSize c.draws sigma lo hi t)
      have e2 := hlik (gpSampleOf env clusterSampleSize c.draws sigma lo hi t')
      show likSum sigma gs _ / Z * lik _ _ _ = likSum sigma gs _ / Z * lik _ _ _
      rw [← e1, ← e2]
      simp only [sampleHyper, gpPrecalculate]
      ring
    · intro s hs
      obtain ⟨t, ht, rfl⟩ := List.mem_map.1 hs
      rw [List.mem_range] at ht
      by_cases hti : t ∈ idx
      · exact Or.inl ⟨_, List.mem_map_of_mem hti, rfl⟩
      · right
        intro hy hh
        obtain ⟨t', ht', rfl⟩ := List.mem_map.1 hh
        have e1 := hlik (gpSampleOf env clusterSampleSize c.draws sigma lo hi t)
        have e2 := hlik (gpSampleOf env clusterSampleSize c.draws sigma lo hi t')
        rw [e1]
        exact (z7 t ht hti t' ht').trans (le_of_eq e2.symm)

/-- What `sampleAcquisition` returns, entry by entry. -/
theorem sample_entries (henv : env.Ok) (hsig : 0 < sigma) {dims : List Int} {as : List (ClusterAction d)} {c : GaussCluster d}
    (h : GaussCluster.run env sigma dims as = .ok c) (wf : ClusterWeight) (af : AcqFunction) {nf : List Int → List (List Int × ℝ)}
    (hnf : ∀ x, InBounds (clusterDims dims as) x → ∀ p ∈ nf x, InBounds (clusterDims dims as) p.1) (samples : List (Fin d → ℝ)) :
    ∃ l, c.sampleAcquisition wf af nf samples = .ok l ∧ l.Pairwise Differ ∧
      (∀ x, InBounds (clusterDims dims as) x → ∀ s ∈ samples, ∃ a ∈ l, a.1.1 = x ∧ vecApprox s a.1.2) ∧
      ∀ a ∈ l, InBounds (clusterDims dims as) a.1.1 ∧ a.1.2 ∈ samples ∧ ∃ own ∈ c.clusters, c.forVector a.1.1 = some own ∧
        a.2 = weightedMean (c.ownAcquisition af own a.1.2)
          ((weightedNeighbours wf c own a.1.2 (nf a.1.1)).map fun q => (c.ownAcquisition af q.1 a.1.2, q.2)) := by
  have hk := cluster_run_knows h
  have hlen : ∀ {x k}, getClusterIndex c.dims x = .ok k → k < c.clusters.length := by
    intro x k hx
    rw [hk.dims_eq] at hx
    exact getElem_lt_prod hk hx
  have hzip : ∀ p ∈ c.clusters.zip c.vectors, InBounds (clusterDims dims as) p.2 ∧ p.1 ∈ c.clusters ∧ c.forVector p.2 = some p.1 := by
    intro p hp
    obtain ⟨i, hi⟩ := List.mem_iff_getElem?.1 hp
    rw [List.getElem?_zip_eq_some] at hi
    obtain ⟨h1, h2⟩ := hi
    rw [hk.vectors] at h2
    refine ⟨(allVectors_mem hk.pos).1 (List.mem_of_getElem? h2), List.mem_of_getElem? h1, ?_⟩
    rw [allVectors_get hk.pos] at h2
    unfold GaussCluster.forVector
    rw [hk.dims_eq, h2]
    exact h1
  obtain ⟨nss, h1, h2⟩ := neighbourLists_spec (wf := wf) (c := c) (nf := nf) (P := fun p ns => ∀ (af : AcqFunction) (s : Fin d → ℝ),
      (ns.filterMap fun q => c.clusters[q.1]?.map fun nb => (c.ownAcquisition af nb s, updatedWeight wf p.1 nb s q.2.1 q.2.2)) =
        (weightedNeighbours wf c p.1 s (nf p.2)).map fun q => (c.ownAcquisition af q.1 s, q.2)) (c.clusters.zip c.vectors) (by
    intro p hp
    obtain ⟨b1, b2, -⟩ := hzip p hp
    exact neighbourList_spec hlen p.1 (fun x => predictVar_pos hsig (hk.ok henv hsig p.1 b2) x) (nf p.2) (by rw [hk.dims_eq]; exact hnf p.2 b1))
  obtain ⟨a1, -, a3, a4⟩ := acquisitions_spec c wf af ((c.clusters.zip c.vectors).zip nss) samples [] List.Pairwise.nil
  obtain ⟨f1, f2⟩ := List.forall₂_iff_zip.1 h2
  refine ⟨_, by unfold GaussCluster.sampleAcquisition; rw [h1]; rfl, a1, ?_, ?_⟩
  · intro x hx s hs
    have hxv : x ∈ c.vectors := by rw [hk.vectors]; exact (allVectors_mem hk.pos).2 hx
    obtain ⟨i, hi⟩ := List.mem_iff_getElem?.1 hxv
    have hil : i < c.vectors.length := (List.getElem?_eq_some_iff.1 hi).1
    have hcl : c.clusters.length = c.vectors.length := by rw [hk.length, hk.vectors, allVectors_length hk.pos]
    obtain ⟨g, hg⟩ : ∃ g, c.clusters[i]? = some g := ⟨_, List.getElem?_eq_getElem (by omega)⟩
    have hz : (c.clusters.zip c.vectors)[i]? = some (g, x) := List.getElem?_zip_eq_some.2 ⟨hg, hi⟩
    obtain ⟨ns, hns⟩ : ∃ ns, nss[i]? = some ns := ⟨_, List.getElem?_eq_getElem (by rw [← f1]; exact (List.getElem?_eq_some_iff.1 hz).1)⟩
    have hm : ((g, x), ns) ∈ (c.clusters.zip c.vectors).zip nss := List.mem_of_getElem? (List.getElem?_zip_eq_some.2 ⟨hz, hns⟩)
    obtain ⟨a, ha, e1, e2⟩ := a3 s hs _ hm
    exact ⟨a, ha, e1.symm, e2⟩
  · intro a ha
    rcases a4 a ha with h | ⟨s, hs, p, hp, rfl⟩
    · simp at h
    · have hp1 : p.1 ∈ c.clusters.zip c.vectors := (List.of_mem_zip hp).1
      obtain ⟨b1, b2, b3⟩ := hzip p.1 hp1
      refine ⟨b1, hs, p.1.1, b2, b3, ?_⟩
      show c.mixAcquisition wf af p.1.1 p.2 s = _
      unfold GaussCluster.mixAcquisition
      simp only
      rw [weightedMean_fold, f2 hp]

/-- Every discrete vector is paired with every continuous one. Pairs are left out only if their vectors are practically equal to those of another. -/
theorem C120_samples (henv : env.Ok) (hsig : 0 < sigma) {dims : List Int} {as : List (ClusterAction d)} {c : GaussCluster d}
    (h : GaussCluster.run env sigma dims as = .ok c) (wf : ClusterWeight) (af : AcqFunction) {nf : List Int → List (List Int × ℝ)}
    (hnf : ∀ x, InBounds (clusterDims dims as) x → ∀ p ∈ nf x, InBounds (clusterDims dims as) p.1) (samples : List (Fin d → ℝ)) :
    ∃ l, c.sampleAcquisition wf af nf samples = .ok l ∧
      (∀ a ∈ l, InBounds (clusterDims dims as) a.1.1 ∧ a.1.2 ∈ samples) ∧
      (∀ x, InBounds (clusterDims dims as) x → ∀ s ∈ samples, ∃ a ∈ l, a.1.1 = x ∧ vecApprox s a.1.2) ∧
      l.Pairwise (fun a b => ¬ (a.1.1 = b.1.1 ∧ vecApprox a.1.2 b.1.2)) ∧
      (samples.Pairwise (fun s t => ¬ vecApprox s t) → (l.map Prod.fst).Nodup ∧ ∀ x s, (x, s) ∈ l.map Prod.fst ↔ InBounds (clusterDims dims as) x ∧ s ∈ samples) := by
  obtain ⟨l, h1, h2, h3, h4⟩ := sample_entries henv hsig h wf af hnf samples
  refine ⟨l, h1, fun a ha => ⟨(h4 a ha).1, (h4 a ha).2.1⟩, h3, h2, fun hs => ⟨?_, fun x s => ⟨?_, ?_⟩⟩⟩
  · unfold List.Nodup
    rw [List.pairwise_map]
    refine h2.imp fun {a b} hab he => hab ?_
    rw [he]
    exact ⟨rfl, vecApprox_refl _⟩
  · intro hm
    obtain ⟨a, ha, he⟩ := List.mem_map.1 hm
    obtain ⟨b1, b2, -⟩ := h4 a ha
    rw [he] at b1 b2
    exact ⟨b1, b2⟩
  · rintro ⟨hx, hsm⟩
    obtain ⟨a, ha, e1, e2⟩ := h3 x hx s hsm
    have hst : s = a.1.2 := by
      by_contra hne
      have hs' : samples.Pairwise fun s t => s ≠ t → ¬ vecApprox s t := List.Pairwise.imp (S := fun s t => s ≠ t → ¬ vecApprox s t) (fun {_ _} h _ => h) hs
      haveI : Std.Symm fun s t : Fin d → ℝ => s ≠ t → ¬ vecApprox s t := ⟨fun s t hst hne' h' => hst hne'.symm (vecApprox_symm h')⟩
      exact hs'.forall_of_forall (fun s _ hne' => absurd rfl hne') hsm (h4 a ha).2.1 hne e2
    exact List.mem_map.2 ⟨a, ha, by rw [← e1, hst]⟩

/-- The value for a discrete and a continuous vector: the mean of the acquisition of the process of the vector, with weight 1, and of those of the neighbours
that have evidence, with their prior weight times their agreement with the process. The agreement is positive, and, unless it is a density, at most 1. -/
theorem C120_mixture (henv : env.Ok) (hsig : 0 < sigma) {dims : List Int} {as : List (ClusterAction d)} {c : GaussCluster d}
    (h : GaussCluster.run env sigma dims as = .ok c) (wf : ClusterWeight) (af : AcqFunction) {nf : List Int → List (List Int × ℝ)}
    (hnf : ∀ x, InBounds (clusterDims dims as) x → ∀ p ∈ nf x, InBounds (clusterDims dims as) p.1) (samples : List (Fin d → ℝ)) :
    ∃ (process : List Int → GaussProc d) (l : List ((List Int × (Fin d → ℝ)) × ℝ)), c.sampleAcquisition wf af nf samples = .ok l ∧
      (∀ (k : ℕ) x, c.vectors[k]? = some x → c.clusters[k]? = some (process x)) ∧
      (∀ x, InBounds (clusterDims dims as) x → (process x).getEvidence = evidenceFor x (sinceDimensions as)) ∧
      (∀ x s a, ((x, s), a) ∈ l →
        a = weightedMean (calcAcquisition af ((process x).predictMean s) ((process x).predictVar s) c.evidenceMax)
          (((nf x).filter fun p => evidenceFor p.1 (sinceDimensions as) ≠ []).map fun p =>
            (calcAcquisition af ((process p.1).predictMean s) ((process p.1).predictVar s) c.evidenceMax, p.2 * agreement wf (process x) (process p.1) s))) ∧
      ∀ x y s, InBounds (clusterDims dims as) x → 0 < agreement wf (process x) (process y) s ∧
        (wf ≠ .evidenceMatchingProbabilityGM → agreement wf (process x) (process y) s ≤ 1) := by
  obtain ⟨l, h1, h2, h3, h4⟩ := sample_entries henv hsig h wf af hnf samples
  have hk := cluster_run_knows h
  have hcl : c.clusters.length = c.vectors.length := by rw [hk.length, hk.vectors, allVectors_length hk.pos]
  have hfor : ∀ x, InBounds (clusterDims dims as) x → ∃ k : ℕ, ∃ g, c.forVector x = some g ∧ c.clusters[k]? = some g ∧ c.vectors[k]? = some x := by
    intro x hx
    obtain ⟨k, hidx⟩ := getClusterIndex_iff.2 hx
    have hv := (allVectors_get hk.pos).2 hidx
    rw [← hk.vectors] at hv
    obtain ⟨g, hg⟩ : ∃ g, c.clusters[k]? = some g := ⟨_, List.getElem?_eq_getElem (by rw [hcl]; exact (List.getElem?_eq_some_iff.1 hv).1)⟩
    refine ⟨k, g, ?_, hg, hv⟩
    unfold GaussCluster.forVector
    rw [hk.dims_eq, hidx]
    exact hg
  have hproc : ∀ x, InBounds (clusterDims dims as) x → c.forVector x = some ((c.forVector x).getD (GaussProc.init env sigma)) := by
    intro x hx
    obtain ⟨k, g, e1, -, -⟩ := hfor x hx
    rw [e1]; rfl
  have hev : ∀ x, InBounds (clusterDims dims as) x → ((c.forVector x).getD (GaussProc.init env sigma)).getEvidence = evidenceFor x (sinceDimensions as) := by
    intro x hx
    obtain ⟨k, g, e1, e2, e3⟩ := hfor x hx
    rw [e1]
    exact C120_evidence_partial h e2 e3
  refine ⟨fun x => (c.forVector x).getD (GaussProc.init env sigma), l, h1, ?_, hev, ?_, ?_⟩
  · intro k x hx
    have hx' := hx
    rw [hk.vectors, allVectors_get hk.pos] at hx'
    obtain ⟨g, hg⟩ : ∃ g, c.clusters[k]? = some g := ⟨_, List.getElem?_eq_getElem (by rw [hcl]; exact (List.getElem?_eq_some_iff.1 hx).1)⟩
    rw [hg]
    have e : c.forVector x = some g := by
      unfold GaussCluster.forVector
      rw [hk.dims_eq, hx']
      exact hg
    simp only [e, Option.getD_some]
  · intro x s a ha
    obtain ⟨b1, b2, own, b3, b4, b5⟩ := h4 _ ha
    simp only at b1 b2 b4 b5
    rw [b5]
    simp only [b4, Option.getD_some]
    show weightedMean (c.ownAcquisition af own s) _ = weightedMean (c.ownAcquisition af own s) _
    congr 1
    have hnb := hnf x b1
    have gen : ∀ nbs : List (List Int × ℝ), (∀ p ∈ nbs, InBounds (clusterDims dims as) p.1) →
        (weightedNeighbours wf c own s nbs).map (fun q => (c.ownAcquisition af q.1 s, q.2)) =
          (nbs.filter fun p => evidenceFor p.1 (sinceDimensions as) ≠ []).map fun p =>
            (c.ownAcquisition af ((c.forVector p.1).getD (GaussProc.init env sigma)) s,
              p.2 * agreement wf own ((c.forVector p.1).getD (GaussProc.init env sigma)) s) := by
      intro nbs
      induction nbs with
      | nil => intro _; rfl
      | cons p nbs ih =>
        intro hp
        have ih := ih fun q hq => hp q (by simp [hq])
        have e1 := hev p.1 (hp p (by simp))
        have e2 := hproc p.1 (hp p (by simp))
        obtain ⟨nb, hnb⟩ : ∃ nb, nb = (c.forVector p.1).getD (GaussProc.init env sigma) := ⟨_, rfl⟩
        have hlen : nb.n = (evidenceFor p.1 (sinceDimensions as)).length := by rw [← e1, ← hnb, getEvidence_length]
        rw [← hnb] at e2
        by_cases hz : evidenceFor p.1 (sinceDimensions as) = []
        · rw [List.filter_cons_of_neg (by simp [hz]), ← ih]
          unfold weightedNeighbours
          rw [List.filterMap_cons_none]
          rw [e2]
          simp [hlen, hz]
        · rw [List.filter_cons_of_pos (by simpa using hz), List.map_cons, ← ih, ← hnb]
          have hpos : nb.n > 0 := by rw [hlen]; exact List.length_pos_iff.2 hz
          unfold weightedNeighbours
          rw [List.filterMap_cons_some (b := (nb, p.2 * agreement wf own nb s))]
          · rfl
          · rw [e2]; simp [hpos]
    exact gen (nf x) hnb
  · intro x y s hx
    obtain ⟨k, g, e1, e2, -⟩ := hfor x hx
    have hvar : ∀ z, 0 < g.predictVar z := fun z => predictVar_pos hsig (hk.ok henv hsig g (List.mem_of_getElem? e2)) z
    simp only [e1, Option.getD_some]
    exact ⟨agreement_nonneg wf hvar s, fun hwf => agreement_le_one hwf hvar s⟩

/-- With prior weights that are not negative, the value lies between the acquisitions of the process and its neighbours: between any bounds that hold for the
acquisitions of all processes. -/
theorem C120_between (henv : env.Ok) (hsig : 0 < sigma) {dims : List Int} {as : List (ClusterAction d)} {c : GaussCluster d}
    (h : GaussCluster.run env sigma dims as = .ok c) (wf : ClusterWeight) (af : AcqFunction) {nf : List Int → List (List Int × ℝ)}
    (hnf : ∀ x, InBounds (clusterDims dims as) x → ∀ p ∈ nf x, InBounds (clusterDims dims as) p.1 ∧ 0 ≤ p.2) (samples : List (Fin d → ℝ)) :
    ∃ l, c.sampleAcquisition wf af nf samples = .ok l ∧
      ∀ x s a, ((x, s), a) ∈ l → ∀ lo hi, (∀ (k : ℕ) g y, c.clusters[k]? = some g → c.vectors[k]? = some y → y = x ∨ y ∈ (nf x).map Prod.fst →
        lo ≤ calcAcquisition af (g.predictMean s) (g.predictVar s) c.evidenceMax ∧ calcAcquisition af (g.predictMean s) (g.predictVar s) c.evidenceMax ≤ hi) →
        lo ≤ a ∧ a ≤ hi := by
  obtain ⟨process, l, h1, h2, h3, h4, h5⟩ := C120_mixture henv hsig h wf af (fun x hx p hp => (hnf x hx p hp).1) samples
  obtain ⟨-, hin, -⟩ := (by
    obtain ⟨l', e1, e2, e3⟩ := C120_samples henv hsig h wf af (fun x hx p hp => (hnf x hx p hp).1) samples
    rw [h1] at e1
    simp only [Outcome.ok.injEq] at e1
    subst e1
    exact ⟨trivial, e2, e3⟩ : True ∧ (∀ a ∈ l, InBounds (clusterDims dims as) a.1.1 ∧ a.1.2 ∈ samples) ∧ _)
  obtain ⟨-, -, hmem, -, hidx⟩ := C120_clusters h
  refine ⟨l, h1, fun x s a ha lo hi hb => ?_⟩
  have hx := (hin _ ha).1
  simp only at hx
  have hget : ∀ y, InBounds (clusterDims dims as) y → ∃ k : ℕ, c.vectors[k]? = some y := fun y hy => List.mem_iff_getElem?.1 ((hmem y).2 hy)
  rw [h4 x s a ha]
  apply weightedMean_between
  · obtain ⟨k, hk⟩ := hget x hx
    exact hb k _ x (h2 k x hk) hk (Or.inl rfl)
  · intro q hq
    obtain ⟨p, hp, rfl⟩ := List.mem_map.1 hq
    have hpm := (List.mem_filter.1 hp).1
    obtain ⟨i1, i2⟩ := hnf x hx p hpm
    obtain ⟨k, hk⟩ := hget p.1 i1
    obtain ⟨b1, b2⟩ := hb k _ p.1 (h2 k _ hk) hk (Or.inr (List.mem_map_of_mem hpm))
    exact ⟨b1, b2, mul_nonneg i2 (h5 x p.1 s hx).1.le⟩

/-- A neighbour out of bounds is reported. -/
theorem C120_neighbour_throws {dims : List Int} {as : List (ClusterAction d)} {c : GaussCluster d} (henv : env.Ok) (hsig : 0 < sigma)
    (h : GaussCluster.run env sigma dims as = .ok c) (wf : ClusterWeight) (af : AcqFunction) {nf : List Int → List (List Int × ℝ)}
    {x : List Int} (hx : InBounds (clusterDims dims as) x) {p : List Int × ℝ} (hp : p ∈ nf x) (hout : ¬ InBounds (clusterDims dims as) p.1)
    (samples : List (Fin d → ℝ)) : c.sampleAcquisition wf af nf samples = .throws := by
  have hk := cluster_run_knows h
  have hlen : ∀ {x k}, getClusterIndex c.dims x = .ok k → k < c.clusters.length := by
    intro x k hx
    rw [hk.dims_eq] at hx
    exact getElem_lt_prod hk hx
  unfold GaussCluster.sampleAcquisition
  rw [neighbourLists_throws]
  · rfl
  · intro q hq
    by_cases hall : ∀ p ∈ nf q.2, InBounds c.dims p.1
    · left
      have hg : q.1 ∈ c.clusters := (List.of_mem_zip hq).1
      obtain ⟨ns, hns, -⟩ := neighbourList_spec (wf := wf) hlen q.1 (fun x => predictVar_pos hsig (hk.ok henv hsig q.1 hg) x) (nf q.2) hall
      exact ⟨ns, hns⟩
    · right
      push Not at hall
      exact neighbourList_throws hlen q.1 _ hall
  · have hcl : c.clusters.length = c.vectors.length := by rw [hk.length, hk.vectors, allVectors_length hk.pos]
    obtain ⟨k, hidx⟩ := getClusterIndex_iff.2 hx
    have hv := (allVectors_get hk.pos).2 hidx
    rw [← hk.vectors] at hv
    obtain ⟨g, hg⟩ : ∃ g, c.clusters[k]? = some g := ⟨_, List.getElem?_eq_getElem (by rw [hcl]; exact (List.getElem?_eq_some_iff.1 hv).1)⟩
    refine ⟨(g, x), List.mem_of_getElem? (List.getElem?_zip_eq_some.2 ⟨hg, hv⟩), ?_⟩
    exact neighbourList_throws hlen g _ ⟨p, hp, by rw [hk.dims_eq]; exact hout⟩

/-- `sampleAcquisitionMax` is an entry with the greatest value. -/
theorem C120_best {c : GaussCluster d} {wf : ClusterWeight} {af : AcqFunction} {nf : List Int → List (List Int × ℝ)} {samples : List (Fin d → ℝ)}
    {l : List ((List Int × (Fin d → ℝ)) × ℝ)} (h : c.sampleAcquisition wf af nf samples = .ok l) (hne : l ≠ []) :
    ∃ best ∈ l, c.sampleAcquisitionMax wf af nf samples = .ok best ∧ ∀ a ∈ l, a.2 ≤ best.2 := by
  unfold GaussCluster.sampleAcquisitionMax
  rw [h]
  cases l with
  | nil => exact absurd rfl hne
  | cons x xs =>
    obtain ⟨h1, h2⟩ := maxElement_spec Prod.snd xs x
    exact ⟨_, h1, rfl, h2⟩

/-- Without continuous vectors the behaviour of `sampleAcquisitionMax` is undefined. -/
theorem C120_violated_no_samples (henv : env.Ok) (hsig : 0 < sigma) {dims : List Int} {as : List (ClusterAction d)} {c : GaussCluster d}
    (h : GaussCluster.run env sigma dims as = .ok c) (wf : ClusterWeight) (af : AcqFunction) :
    c.sampleAcquisitionMax wf af (fun _ => []) [] = .ub := by
  obtain ⟨l, h1, h2, -⟩ := C120_samples henv hsig h wf af (nf := fun _ => []) (by simp) []
  unfold GaussCluster.sampleAcquisitionMax
  rw [h1]
  cases l with
  | nil => rfl
  | cons a l => exact absurd (h2 a (by simp)).2 (by simp)

/-- `sampleOrderedByAcquisition`: the same vectors, in the order of their values, the greatest last. -/
theorem C120_ordered {sort : List ((List Int × (Fin d → ℝ)) × ℝ) → List ((List Int × (Fin d → ℝ)) × ℝ)}
    (hsort : ∀ l, (sort l).Perm l ∧ (sort l).Pairwise fun a b => a.2 ≤ b.2)
    {c : GaussCluster d} {wf : ClusterWeight} {af : AcqFunction} {nf : List Int → List (List Int × ℝ)} {samples : List (Fin d → ℝ)}
    {l : List ((List Int × (Fin d → ℝ)) × ℝ)} (h : c.sampleAcquisition wf af nf samples = .ok l) :
    ∃ l' : List ((List Int × (Fin d → ℝ)) × ℝ), l'.Perm l ∧ l'.Pairwise (fun a b => a.2 ≤ b.2) ∧ c.sampleOrdered sort wf af nf samples = .ok (l'.map Prod.fst) := by
  refine ⟨sort l, (hsort l).1, (hsort l).2, ?_⟩
  unfold GaussCluster.sampleOrdered
  rw [h]
  rfl

end

section
variable {d : ℕ} {env : GaussEnv} {sigma : ℝ}

theorem clear_neighbourList (c : GaussCluster d) (wf : ClusterWeight) (own : GaussProc d) :
    ∀ nbs, neighbourList wf (c.clear env sigma) own nbs = neighbourList wf c own nbs
  | [] => rfl
  | (n, p) :: rest => by
    unfold neighbourList
    rw [clear_neighbourList c wf own rest]
    rfl

theorem clear_neighbourLists (c : GaussCluster d) (wf : ClusterWeight) (nf : List Int → List (List Int × ℝ)) :
    ∀ l, neighbourLists wf (c.clear env sigma) nf l = neighbourLists wf c nf l
  | [] => rfl
  | (own, v) :: rest => by
    unfold neighbourLists
    rw [clear_neighbourLists c wf nf rest, clear_neighbourList]

theorem clear_loop (c : GaussCluster d) (wf : ClusterWeight) (af : AcqFunction) (s : Fin d → ℝ) :
    ∀ items acc, acquisitionLoop (c.clear env sigma) wf af s acc items = acquisitionLoop c wf af s acc items
  | [], _ => rfl
  | ((own, v), ns) :: rest, acc => by
    unfold acquisitionLoop
    rw [clear_loop c wf af s rest, clear_loop c wf af s rest]
    rfl

/-- `clear` has no influence on any acquisition. -/
theorem clear_sample (c : GaussCluster d) (wf : ClusterWeight) (af : AcqFunction) (nf : List Int → List (List Int × ℝ)) (samples : List (Fin d → ℝ)) :
    (c.clear env sigma).sampleAcquisition wf af nf samples = c.sampleAcquisition wf af nf samples := by
  unfold GaussCluster.sampleAcquisition
  rw [show (c.clear env sigma).clusters = c.clusters from rfl, show (c.clear env sigma).vectors = c.vectors from rfl, clear_neighbourLists]
  simp only [clear_loop]

/-- **Violation.** `clear` is documented to discard all evidence. It has no influence on any acquisition, for any cluster. So after one observation with value 1
and `clear`, 1 is predicted everywhere, while 0 is predicted without evidence. -/
theorem C120_violated_clear (henv : env.Ok) (hsig : 0 < sigma) :
    (∀ (c : GaussCluster d) (wf : ClusterWeight) (af : AcqFunction) (nf : List Int → List (List Int × ℝ)) (samples : List (Fin d → ℝ)),
      (c.clear env sigma).sampleAcquisition wf af nf samples = c.sampleAcquisition wf af nf samples) ∧
    ∀ (dims x : List Int) (y s : Fin d → ℝ) (wf : ClusterWeight), (∀ r ∈ dims, 0 < r) → InBounds dims x →
      (∃ c l, GaussCluster.run env sigma dims [.addEvidence x y 1, .clear] = .ok c ∧ c.numEvidence = 0 ∧
        c.sampleAcquisition wf .mean (fun _ => []) [s] = .ok l ∧ l ≠ [] ∧ ∀ a ∈ l, a.2 = 1) ∧
      ∃ c l, GaussCluster.run env sigma dims [] = .ok c ∧ c.numEvidence = 0 ∧
        c.sampleAcquisition wf .mean (fun _ => []) [s] = .ok l ∧ l ≠ [] ∧ ∀ a ∈ l, a.2 = 0 := by
  refine ⟨fun c wf af nf samples => clear_sample c wf af nf samples, fun dims x y s wf hpos hx => ⟨?_, ?_⟩⟩
  · obtain ⟨c, hc⟩ := (C120_runs (env := env) (sigma := sigma) dims [.addEvidence x y 1, .clear]).1 ⟨hx, hpos⟩
    obtain ⟨l, h1, h2, h3, h4⟩ := sample_entries henv hsig hc wf .mean (nf := fun _ => []) (by simp) [s]
    refine ⟨c, l, hc, (C120_extremes hc).1, h1, ?_, ?_⟩
    · obtain ⟨a, ha, -⟩ := h3 x hx s (by simp)
      exact List.ne_nil_of_mem ha
    · intro a ha
      obtain ⟨-, -, own, hown, -, e⟩ := h4 a ha
      rw [e]
      simp only [weightedNeighbours, List.filterMap_nil, List.map_nil, weightedMean, List.sum_nil, add_zero, div_one]
      show own.predictMean a.1.2 = 1
      -- the history, step by step
      unfold GaussCluster.run at hc
      obtain ⟨c0, i1, i2⟩ := Outcome.bind_ok.1 hc
      have hc0 : GaussCluster.run env sigma dims [] = .ok c0 := by
        unfold GaussCluster.run
        rw [i1]
        rfl
      simp only [GaussCluster.steps, GaussCluster.step] at i2
      obtain ⟨c1, i3, i4⟩ := Outcome.bind_ok.1 i2
      simp only [Outcome.bind, Outcome.ok.injEq] at i4
      have hown1 : own ∈ c1.clusters := by rw [← i4] at hown; exact hown
      have hk1 := addEvidence_cluster_knows (cluster_run_knows hc0) i3
      have hok := hk1.ok henv hsig own hown1
      obtain ⟨samples, -, s2, s3⟩ := C120_likelihood henv hsig hc0 i3
      obtain ⟨-, s4, -⟩ := s3 own hown1
      have hone : c1.evidenceMin = 1 ∧ c1.evidenceMax = 1 := by
        obtain ⟨pre, o, post, e1, e2, -, -, -⟩ := hk1.greatest (by simp)
        obtain ⟨⟨o', o1, o2⟩, -⟩ := hk1.least (by simp)
        have ho : o ∈ sinceClear (d := d) [] ++ [((x, y), (1 : ℝ))] := by rw [e1]; simp
        simp only [sinceClear, List.foldl_nil, List.nil_append, List.mem_singleton] at ho o1
        rw [e2, ← o2, ho, o1]
        exact ⟨rfl, rfl⟩
      have hout : ∀ i, own.outputs i = 1 := by
        intro i
        have hm : own.getEvidence ∈ c1.clusters.map GaussProc.getEvidence := List.mem_map_of_mem hown1
        rw [hk1.evidence] at hm
        obtain ⟨x', -, e1⟩ := List.mem_map.1 hm
        have hmi : (own.inputs i, own.outputs i) ∈ own.getEvidence := by
          unfold GaussProc.getEvidence
          exact List.mem_ofFn.2 ⟨i, rfl⟩
        rw [← e1] at hmi
        unfold evidenceFor at hmi
        obtain ⟨e, he, he'⟩ := List.mem_filterMap.1 hmi
        simp only [sinceDimensions, List.foldl_nil, List.nil_append, List.mem_singleton] at he
        rw [he] at he'
        split_ifs at he' <;> simp_all
      have hmean : ∀ hy ∈ own.hypers, gpHyperMean own.inputs hy a.1.2 = 1 := by
        intro hy hh
        obtain ⟨w, -, w2, -⟩ := hyper_predict hsig hok hh a.1.2
        obtain ⟨m1, m2, -⟩ := s2 _ (s4 hy hh)
        simp only [hone] at m1 m2
        have hm : hy.mean = 1 := le_antisymm m2 m1
        rw [w2, hm]
        simp [hout]
      unfold GaussProc.predictMean
      rw [show (own.hypers.map fun h => h.score * gpHyperMean own.inputs h a.1.2) = own.hypers.map GaussHyper.score from
        List.map_congr_left fun hy hh => by rw [hmean hy hh, mul_one]]
      exact hok.sum
  · obtain ⟨c, hc⟩ := (C120_runs (env := env) (sigma := sigma) (d := d) dims []).1 hpos
    obtain ⟨l, h1, h2, h3, h4⟩ := sample_entries henv hsig hc wf .mean (nf := fun _ => []) (by simp) [s]
    refine ⟨c, l, hc, (C120_extremes hc).1, h1, ?_, ?_⟩
    · obtain ⟨a, ha, -⟩ := h3 x hx s (by simp)
      exact List.ne_nil_of_mem ha
    · intro a ha
      obtain ⟨-, -, own, hown, -, e⟩ := h4 a ha
      rw [e]
      simp only [weightedNeighbours, List.filterMap_nil, List.map_nil, weightedMean, List.sum_nil, add_zero, div_one]
      show own.predictMean a.1.2 = 0
      have hinit : own = GaussProc.init env sigma := by
        unfold GaussCluster.run GaussCluster.init GaussCluster.initClusters at hc
        rw [numClusters_spec, if_pos hpos] at hc
        simp only [Outcome.bind, GaussCluster.steps, Outcome.ok.injEq] at hc
        rw [← hc] at hown
        exact List.eq_of_mem_replicate hown
      rw [hinit]
      unfold GaussProc.predictMean GaussProc.init GaussProc.empty gpHyperMean
      simp [gpTune, gpPrecalculate]

end

/-! The hypotheses are met: two dimensions, evidence for two vectors. -/

section

/-- Two discrete dimensions with three and two values, one continuous; two observations. -/
noncomputable def someClusterHistory : List (ClusterAction 1) := [.addEvidence [2, 1] (fun _ => 1) 3, .addEvidence [0, 0] (fun _ => 2) 5, .addEvidence [2, 1] (fun _ => 4) 1]

theorem someClusterHistory_proper : ProperHistory [3, 2] someClusterHistory := by
  refine ⟨?_, ?_, ?_, ?_⟩
  · exact List.Forall₂.cons (by decide) (List.Forall₂.cons (by decide) List.Forall₂.nil)
  · exact List.Forall₂.cons (by decide) (List.Forall₂.cons (by decide) List.Forall₂.nil)
  · exact List.Forall₂.cons (by decide) (List.Forall₂.cons (by decide) List.Forall₂.nil)
  · intro r hr
    simp only [List.mem_cons, List.not_mem_nil, or_false] at hr
    omega

/-- It runs, and the evidence and the greatest are as expected. -/
example : ∃ c : GaussCluster 1, GaussCluster.run someGaussEnv 1 [3, 2] someClusterHistory = .ok c ∧ c.numEvidence = 3 ∧ c.vectors.length = 6 ∧
    evidenceFor [2, 1] (sinceDimensions someClusterHistory) = [(fun _ => 1, 3), (fun _ => 4, 1)] := by
  obtain ⟨c, hc⟩ := (C120_runs (env := someGaussEnv) (sigma := 1) [3, 2] someClusterHistory).1 someClusterHistory_proper
  refine ⟨c, hc, by rw [(C120_extremes hc).1]; rfl, ?_, ?_⟩
  · have hk := cluster_run_knows hc
    rw [hk.vectors, allVectors_length hk.pos]
    rfl
  · simp [evidenceFor, sinceDimensions, someClusterHistory]

/-- A neighbour function: the vector with the other second entry. -/
noncomputable def someNeighbours : List Int → List (List Int × ℝ) := fun x => [([x.getD 0 0, 1 - x.getD 1 0], 1 / 2)]

theorem someNeighbours_bounds : ∀ x, InBounds [3, 2] x → ∀ p ∈ someNeighbours x, InBounds [3, 2] p.1 ∧ 0 ≤ p.2 := by
  intro x hx p hp
  unfold InBounds at hx
  cases hx with
  | cons h1 h2 =>
    cases h2 with
    | cons h3 h4 =>
      cases h4
      simp only [someNeighbours, List.getD_cons_zero, List.getD_cons_succ, List.mem_singleton] at hp
      subst hp
      refine ⟨List.Forall₂.cons h1 (List.Forall₂.cons ?_ List.Forall₂.nil), by norm_num⟩
      omega

example : ∃ c : GaussCluster 1, ∃ l, GaussCluster.run someGaussEnv 1 [3, 2] someClusterHistory = .ok c ∧
    c.sampleAcquisition .wasserstein2 .upperConfidenceBound someNeighbours [fun _ => 0, fun _ => 1] = .ok l ∧ l ≠ [] := by
  obtain ⟨c, hc⟩ := (C120_runs (env := someGaussEnv) (sigma := 1) [3, 2] someClusterHistory).1 someClusterHistory_proper
  obtain ⟨l, h1, -, h3, -⟩ := C120_samples someGaussEnv_ok one_pos hc .wasserstein2 .upperConfidenceBound (nf := someNeighbours)
    (fun x hx p hp => (someNeighbours_bounds x hx p hp).1) [fun _ => 0, fun _ => 1]
  refine ⟨c, l, hc, h1, ?_⟩
  obtain ⟨a, ha, -⟩ := h3 [0, 0] (List.Forall₂.cons (by decide) (List.Forall₂.cons (by decide) List.Forall₂.nil)) (fun _ => 0) (by simp)
  exact List.ne_nil_of_mem ha

end

end Verif
