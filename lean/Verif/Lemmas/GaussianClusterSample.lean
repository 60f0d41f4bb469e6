import Verif.Lemmas.GaussianClusterRun
import Verif.Props.C117
/-! Acquisitions of a cluster. -/
namespace Verif
open Spec ProbabilityTheory

section
variable {d : ℕ} {env : GaussEnv} {sigma : ℝ}

theorem vecApprox_refl (a : Fin d → ℝ) : vecApprox a a := by
  unfold vecApprox
  have h : 0 ≤ ∑ i, a i ^ 2 := Finset.sum_nonneg fun i _ => sq_nonneg _
  simp only [sub_self, min_self]
  have : (0 : ℝ) ≤ (1 / 10 ^ 12) ^ 2 * ∑ i, a i ^ 2 := by positivity
  simpa using this

theorem vecApprox_symm {a b : Fin d → ℝ} (h : vecApprox a b) : vecApprox b a := by
  unfold vecApprox at *
  rw [min_comm]
  have he : ∑ i, (b i - a i) ^ 2 = ∑ i, (a i - b i) ^ 2 := Finset.sum_congr rfl fun i _ => by ring
  rw [he]
  exact h

/-- The cluster for a discrete vector. -/
def GaussCluster.forVector (c : GaussCluster d) (x : List Int) : Option (GaussProc d) :=
  match getClusterIndex c.dims x with
  | .ok k => c.clusters[k]?
  | _ => none

/-- The neighbours that have evidence, with the weight they get for a continuous vector. -/
noncomputable def weightedNeighbours (wf : ClusterWeight) (c : GaussCluster d) (own : GaussProc d) (s : Fin d → ℝ) (nbs : List (List Int × ℝ)) :
    List (GaussProc d × ℝ) :=
  nbs.filterMap fun p => (c.forVector p.1).bind fun nb => if nb.n > 0 then some (nb, p.2 * agreement wf own nb s) else none

theorem scaled_density {mean var y : ℝ} : normalPDF ((mean - y) / Real.sqrt var) / (1 / Real.sqrt (2 * Real.pi)) =
    Real.exp (-(y - mean) ^ 2 / (2 * Real.sqrt var ^ 2)) := by
  have hpi : Real.sqrt (2 * Real.pi) ≠ 0 := by positivity
  unfold normalPDF
  field_simp
  congr 1
  ring

theorem prod_getEvidence (nb : GaussProc d) (f : (Fin d → ℝ) × ℝ → ℝ) : (nb.getEvidence.map f).prod = ∏ e, f (nb.inputs e, nb.outputs e) := by
  unfold GaussProc.getEvidence
  rw [List.map_ofFn, List.prod_ofFn]
  rfl

theorem getEvidence_length (nb : GaussProc d) : nb.getEvidence.length = nb.n := by
  unfold GaussProc.getEvidence
  simp

/-- The weight is the prior weight times the agreement. -/
theorem updatedWeight_eq (wf : ClusterWeight) {own : GaussProc d} (nb : GaussProc d) (hvar : ∀ x, 0 < own.predictVar x) (s : Fin d → ℝ) (prior : ℝ) :
    updatedWeight wf own nb s prior (prior * initialWeight wf own nb) = prior * agreement wf own nb s := by
  cases wf with
  | evidenceMatchingProbabilityGM =>
    unfold updatedWeight initialWeight agreement
    simp only
    rw [prod_getEvidence, getEvidence_length]
    congr 3
    ext e
    exact C117_density (hvar _) _
  | evidenceMatchingScaledProbabilityGM =>
    unfold updatedWeight initialWeight agreement
    simp only
    rw [prod_getEvidence, getEvidence_length]
    congr 3
    ext e
    unfold GaussProc.outputScaledPDF
    rw [scaled_density, Real.sq_sqrt (hvar _).le]
  | wasserstein2 =>
    unfold updatedWeight agreement wassersteinSq
    simp only
    rw [mul_comm]
    congr 2
    ring

theorem agreement_nonneg (wf : ClusterWeight) {own nb : GaussProc d} (hvar : ∀ x, 0 < own.predictVar x) (s : Fin d → ℝ) : 0 < agreement wf own nb s := by
  cases wf with
  | evidenceMatchingProbabilityGM =>
    apply Real.rpow_pos_of_pos
    rw [prod_getEvidence]
    apply Finset.prod_pos
    intro e _
    apply gaussianPDFReal_pos
    intro h
    have := hvar (nb.inputs e)
    rw [Real.toNNReal_eq_zero] at h
    simp only at h
    linarith
  | evidenceMatchingScaledProbabilityGM =>
    apply Real.rpow_pos_of_pos
    rw [prod_getEvidence]
    exact Finset.prod_pos fun e _ => Real.exp_pos _
  | wasserstein2 =>
    have h := hvar s
    unfold agreement wassersteinSq
    simp only
    positivity

theorem agreement_le_one {wf : ClusterWeight} (hwf : wf ≠ .evidenceMatchingProbabilityGM) {own nb : GaussProc d} (hvar : ∀ x, 0 < own.predictVar x) (s : Fin d → ℝ) :
    agreement wf own nb s ≤ 1 := by
  cases wf with
  | evidenceMatchingProbabilityGM => exact absurd rfl hwf
  | evidenceMatchingScaledProbabilityGM =>
    unfold agreement
    simp only
    rw [prod_getEvidence]
    apply Real.rpow_le_one
    · exact Finset.prod_nonneg fun e _ => (Real.exp_pos _).le
    · apply Finset.prod_le_one
      · exact fun e _ => (Real.exp_pos _).le
      · intro e _
        rw [Real.exp_le_one_iff]
        have := hvar (nb.inputs e)
        have h2 := sq_nonneg (nb.outputs e - own.predictMean (nb.inputs e))
        rw [neg_div]
        have : 0 ≤ (nb.outputs e - own.predictMean (nb.inputs e)) ^ 2 / (2 * own.predictVar (nb.inputs e)) := by positivity
        simp only
        linarith
    · positivity
  | wasserstein2 =>
    have h := hvar s
    unfold agreement wassersteinSq
    simp only
    rw [div_le_one (by positivity)]
    have h1 := sq_nonneg (own.predictMean s - nb.predictMean s)
    have h2 := sq_nonneg (Real.sqrt (own.predictVar s) - Real.sqrt (nb.predictVar s))
    linarith

theorem weightedMean_fold (own : ℝ) (l : List (ℝ × ℝ)) :
    l.foldl (fun acc p => acc + p.1 * p.2) own / l.foldl (fun acc p => acc + p.2) 1 = weightedMean own l := by
  have h1 : ∀ (l : List (ℝ × ℝ)) (a : ℝ), l.foldl (fun acc p => acc + p.1 * p.2) a = a + (l.map fun p => p.1 * p.2).sum := by
    intro l
    induction l with
    | nil => simp
    | cons x l ih => intro a; rw [List.foldl_cons, ih, List.map_cons, List.sum_cons]; ring
  have h2 : ∀ (l : List (ℝ × ℝ)) (a : ℝ), l.foldl (fun acc p => acc + p.2) a = a + (l.map Prod.snd).sum := by
    intro l
    induction l with
    | nil => simp
    | cons x l ih => intro a; rw [List.foldl_cons, ih, List.map_cons, List.sum_cons]; ring
  rw [h1, h2]
  rfl

/-- A weighted mean lies between the extreme values. -/
theorem weightedMean_between {own lo hi : ℝ} {l : List (ℝ × ℝ)} (h : lo ≤ own ∧ own ≤ hi) (hl : ∀ p ∈ l, lo ≤ p.1 ∧ p.1 ≤ hi ∧ 0 ≤ p.2) :
    lo ≤ weightedMean own l ∧ weightedMean own l ≤ hi := by
  have gen : ∀ l : List (ℝ × ℝ), (∀ p ∈ l, lo ≤ p.1 ∧ p.1 ≤ hi ∧ 0 ≤ p.2) → 0 ≤ (l.map Prod.snd).sum ∧
      lo * (l.map Prod.snd).sum ≤ (l.map fun p => p.1 * p.2).sum ∧ (l.map fun p => p.1 * p.2).sum ≤ hi * (l.map Prod.snd).sum := by
    intro l
    induction l with
    | nil => intro _; simp
    | cons x l ih =>
      intro hl
      obtain ⟨a, b, c⟩ := ih fun p hp => hl p (by simp [hp])
      obtain ⟨x1, x2, x3⟩ := hl x (by simp)
      simp only [List.map_cons, List.sum_cons]
      refine ⟨by linarith, ?_, ?_⟩
      · have := mul_le_mul_of_nonneg_right x1 x3
        linarith
      · have := mul_le_mul_of_nonneg_right x2 x3
        linarith
  obtain ⟨a, b, c⟩ := gen l hl
  unfold weightedMean
  constructor
  · rw [le_div_iff₀ (by linarith)]
    linarith
  · rw [div_le_iff₀ (by linarith)]
    linarith

theorem neighbourList_spec {wf : ClusterWeight} {c : GaussCluster d} (hlen : ∀ {x k}, getClusterIndex c.dims x = .ok k → k < c.clusters.length) (own : GaussProc d)
    (hvar : ∀ x, 0 < own.predictVar x) : ∀ (nbs : List (List Int × ℝ)), (∀ p ∈ nbs, InBounds c.dims p.1) →
    ∃ ns, neighbourList wf c own nbs = .ok ns ∧ ∀ (af : AcqFunction) (s : Fin d → ℝ),
      (ns.filterMap fun p => c.clusters[p.1]?.map fun nb => (c.ownAcquisition af nb s, updatedWeight wf own nb s p.2.1 p.2.2)) =
        (weightedNeighbours wf c own s nbs).map fun q => (c.ownAcquisition af q.1 s, q.2)
  | [], _ => ⟨[], rfl, fun _ _ => rfl⟩
  | (n, prior) :: rest, h => by
    obtain ⟨ns, h1, h2⟩ := neighbourList_spec hlen own hvar rest fun p hp => h p (by simp [hp])
    obtain ⟨k, hk⟩ := getClusterIndex_iff.2 (h (n, prior) (by simp))
    obtain ⟨nb, hnb⟩ : ∃ nb, c.clusters[k]? = some nb := ⟨_, List.getElem?_eq_getElem (hlen hk)⟩
    have hfor : c.forVector n = some nb := by unfold GaussCluster.forVector; rw [hk]; exact hnb
    unfold neighbourList
    rw [hk, h1]
    simp only [Outcome.bind, hnb]
    by_cases hn : nb.n > 0
    · refine ⟨_, if_pos hn, fun af s => ?_⟩
      unfold weightedNeighbours
      rw [List.filterMap_cons_some (b := (c.ownAcquisition af nb s, updatedWeight wf own nb s prior (prior * initialWeight wf own nb))),
        List.filterMap_cons_some (b := (nb, prior * agreement wf own nb s)), List.map_cons, h2, updatedWeight_eq wf nb hvar]
      · rfl
      · simp [hfor, hn]
      · simp [hnb]
    · refine ⟨_, if_neg hn, fun af s => ?_⟩
      unfold weightedNeighbours
      rw [List.filterMap_cons_none, h2]
      · rfl
      · simp [hfor, hn]

theorem neighbourList_throws {wf : ClusterWeight} {c : GaussCluster d} (hlen : ∀ {x k}, getClusterIndex c.dims x = .ok k → k < c.clusters.length) (own : GaussProc d) :
    ∀ (nbs : List (List Int × ℝ)), (∃ p ∈ nbs, ¬ InBounds c.dims p.1) → neighbourList wf c own nbs = .throws
  | [], h => by simp at h
  | (n, prior) :: rest, h => by
    unfold neighbourList
    by_cases hb : InBounds c.dims n
    · obtain ⟨k, hk⟩ := getClusterIndex_iff.2 hb
      rw [hk]
      have : ∃ p ∈ rest, ¬ InBounds c.dims p.1 := by
        obtain ⟨p, hp, hp2⟩ := h
        rcases List.mem_cons.1 hp with rfl | hp
        · exact absurd hb hp2
        · exact ⟨p, hp, hp2⟩
      rw [neighbourList_throws hlen own rest this]
      rfl
    · rw [getClusterIndex_throws hb]
      rfl

theorem neighbourLists_spec {wf : ClusterWeight} {c : GaussCluster d} {nf : List Int → List (List Int × ℝ)} {P : GaussProc d × List Int → List (ℕ × ℝ × ℝ) → Prop} :
    ∀ (l : List (GaussProc d × List Int)), (∀ p ∈ l, ∃ ns, neighbourList wf c p.1 (nf p.2) = .ok ns ∧ P p ns) →
      ∃ nss, neighbourLists wf c nf l = .ok nss ∧ List.Forall₂ P l nss
  | [], _ => ⟨[], rfl, .nil⟩
  | (own, v) :: rest, h => by
    obtain ⟨ns, h1, h2⟩ := h (own, v) (by simp)
    obtain ⟨nss, h3, h4⟩ := neighbourLists_spec rest fun p hp => h p (by simp [hp])
    refine ⟨ns :: nss, ?_, .cons h2 h4⟩
    unfold neighbourLists
    simp only at h1
    rw [h1, h3]
    rfl

theorem neighbourLists_throws {wf : ClusterWeight} {c : GaussCluster d} {nf : List Int → List (List Int × ℝ)} :
    ∀ (l : List (GaussProc d × List Int)), (∀ p ∈ l, (∃ ns, neighbourList wf c p.1 (nf p.2) = .ok ns) ∨ neighbourList wf c p.1 (nf p.2) = .throws) →
      (∃ p ∈ l, neighbourList wf c p.1 (nf p.2) = .throws) → neighbourLists wf c nf l = .throws
  | [], _, h => by simp at h
  | (own, v) :: rest, hall, h => by
    unfold neighbourLists
    rcases hall (own, v) (by simp) with ⟨ns, hns⟩ | ht
    · have : ∃ p ∈ rest, neighbourList wf c p.1 (nf p.2) = .throws := by
        obtain ⟨p, hp, hp2⟩ := h
        rcases List.mem_cons.1 hp with rfl | hp
        · rw [hns] at hp2; simp at hp2
        · exact ⟨p, hp, hp2⟩
      simp only at hns
      rw [hns, neighbourLists_throws rest (fun p hp => hall p (by simp [hp])) this]
      rfl
    · simp only at ht
      rw [ht]
      rfl

/-- Two entries are for different vectors. -/
def Differ (a b : (List Int × (Fin d → ℝ)) × ℝ) : Prop := ¬ (a.1.1 = b.1.1 ∧ vecApprox a.1.2 b.1.2)

theorem acquisitionLoop_spec (c : GaussCluster d) (wf : ClusterWeight) (af : AcqFunction) (s : Fin d → ℝ) :
    ∀ (items : List ((GaussProc d × List Int) × List (ℕ × ℝ × ℝ))) (acc : List ((List Int × (Fin d → ℝ)) × ℝ)), acc.Pairwise Differ →
      (acquisitionLoop c wf af s acc items).Pairwise Differ ∧
      (∀ a ∈ acc, a ∈ acquisitionLoop c wf af s acc items) ∧
      (∀ p ∈ items, ∃ a ∈ acquisitionLoop c wf af s acc items, p.1.2 = a.1.1 ∧ vecApprox s a.1.2) ∧
      (∀ a ∈ acquisitionLoop c wf af s acc items, a ∈ acc ∨ ∃ p ∈ items, a = ((p.1.2, s), c.mixAcquisition wf af p.1.1 p.2 s))
  | [], acc, h => ⟨h, fun _ h => h, by simp, fun a ha => Or.inl ha⟩
  | ((own, v), ns) :: rest, acc, h => by
    unfold acquisitionLoop
    split_ifs with hc
    · obtain ⟨a1, a2, a3, a4⟩ := acquisitionLoop_spec c wf af s rest acc h
      refine ⟨a1, a2, ?_, ?_⟩
      · intro p hp
        rcases List.mem_cons.1 hp with rfl | hp
        · obtain ⟨a, ha, h1, h2⟩ := hc
          exact ⟨a, a2 a ha, h1, h2⟩
        · exact a3 p hp
      · intro a ha
        rcases a4 a ha with h | ⟨p, hp, h⟩
        · exact Or.inl h
        · exact Or.inr ⟨p, by simp [hp], h⟩
    · have hpw : (acc ++ [((v, s), c.mixAcquisition wf af own ns s)]).Pairwise Differ := by
        rw [List.pairwise_append]
        refine ⟨h, List.pairwise_singleton _ _, fun a ha b hb => ?_⟩
        rw [List.mem_singleton.1 hb]
        rintro ⟨h1, h2⟩
        exact hc ⟨a, ha, h1.symm, vecApprox_symm h2⟩
      obtain ⟨a1, a2, a3, a4⟩ := acquisitionLoop_spec c wf af s rest _ hpw
      refine ⟨a1, fun a ha => a2 a (by simp [ha]), ?_, ?_⟩
      · intro p hp
        rcases List.mem_cons.1 hp with rfl | hp
        · exact ⟨((v, s), c.mixAcquisition wf af own ns s), a2 _ (List.mem_append_right _ (List.mem_singleton.2 rfl)), rfl, vecApprox_refl s⟩
        · exact a3 p hp
      · intro a ha
        rcases a4 a ha with h | ⟨p, hp, h⟩
        · rcases List.mem_append.1 h with h | h
          · exact Or.inl h
          · exact Or.inr ⟨((own, v), ns), by simp, List.mem_singleton.1 h⟩
        · exact Or.inr ⟨p, by simp [hp], h⟩

theorem acquisitions_spec (c : GaussCluster d) (wf : ClusterWeight) (af : AcqFunction) (items : List ((GaussProc d × List Int) × List (ℕ × ℝ × ℝ))) :
    ∀ (samples : List (Fin d → ℝ)) (acc : List ((List Int × (Fin d → ℝ)) × ℝ)), acc.Pairwise Differ →
      (samples.foldl (fun acc s => acquisitionLoop c wf af s acc items) acc).Pairwise Differ ∧
      (∀ a ∈ acc, a ∈ samples.foldl (fun acc s => acquisitionLoop c wf af s acc items) acc) ∧
      (∀ s ∈ samples, ∀ p ∈ items, ∃ a ∈ samples.foldl (fun acc s => acquisitionLoop c wf af s acc items) acc, p.1.2 = a.1.1 ∧ vecApprox s a.1.2) ∧
      (∀ a ∈ samples.foldl (fun acc s => acquisitionLoop c wf af s acc items) acc,
        a ∈ acc ∨ ∃ s ∈ samples, ∃ p ∈ items, a = ((p.1.2, s), c.mixAcquisition wf af p.1.1 p.2 s))
  | [], acc, h => ⟨h, fun _ h => h, by simp, fun a ha => Or.inl ha⟩
  | s :: samples, acc, h => by
    obtain ⟨a1, a2, a3, a4⟩ := acquisitionLoop_spec c wf af s items acc h
    obtain ⟨b1, b2, b3, b4⟩ := acquisitions_spec c wf af items samples _ a1
    refine ⟨b1, fun a ha => b2 a (a2 a ha), ?_, ?_⟩
    · intro t ht p hp
      rcases List.mem_cons.1 ht with rfl | ht
      · obtain ⟨a, ha, h1, h2⟩ := a3 p hp
        exact ⟨a, b2 a ha, h1, h2⟩
      · exact b3 t ht p hp
    · intro a ha
      rcases b4 a ha with h | ⟨t, ht, p, hp, h⟩
      · rcases a4 a h with h | ⟨p, hp, h⟩
        · exact Or.inl h
        · exact Or.inr ⟨s, by simp, p, hp, h⟩
      · exact Or.inr ⟨t, by simp [ht], p, hp, h⟩

theorem maxElement_spec {X : Type} (val : X → ℝ) : ∀ (l : List X) (b : X), maxElement val b l ∈ b :: l ∧ ∀ x ∈ b :: l, val x ≤ val (maxElement val b l)
  | [], b => by simp [maxElement]
  | y :: l, b => by
    unfold maxElement
    split_ifs with h
    · obtain ⟨h1, h2⟩ := maxElement_spec val l y
      refine ⟨by simp only [List.mem_cons] at h1 ⊢; tauto, fun x hx => ?_⟩
      rcases List.mem_cons.1 hx with rfl | hx
      · exact h.le.trans (h2 y (by simp))
      · exact h2 x hx
    · obtain ⟨h1, h2⟩ := maxElement_spec val l b
      refine ⟨by simp only [List.mem_cons] at h1 ⊢; tauto, fun x hx => ?_⟩
      rcases List.mem_cons.1 hx with rfl | hx
      · exact h2 x (by simp)
      · rcases List.mem_cons.1 hx with rfl | hx
        · exact (not_lt.1 h).trans (h2 b (by simp))
        · exact h2 x (by simp [hx])

end

end Verif
