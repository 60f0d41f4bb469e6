import Verif.Lemmas.GaussianClusterIndex
import Verif.Lemmas.GaussianClusterTune
/-! Histories of a cluster. -/
namespace Verif
open Spec

section
variable {d : ℕ} {env : GaussEnv} {sigma : ℝ}

/-- What a cluster knows: `obs` is the evidence since the dimensions were set, `recent` that since `clear`. -/
structure GaussCluster.Knows (env : GaussEnv) (sigma : ℝ) (c : GaussCluster d) (dims : List Int) (obs recent : List ((List Int × (Fin d → ℝ)) × ℝ)) : Prop where
  dims_eq : c.dims = dims
  pos : ∀ r ∈ dims, 0 < r
  vectors : c.vectors = allVectors dims
  length : c.clusters.length = (dims.map Int.toNat).prod
  evidence : c.clusters.map GaussProc.getEvidence = (allVectors dims).map fun x => evidenceFor x obs
  num : c.numEvidence = recent.length
  least : recent ≠ [] → (∃ o ∈ recent, o.2 = c.evidenceMin) ∧ ∀ o ∈ recent, c.evidenceMin ≤ o.2
  greatest : recent ≠ [] → ∃ pre o post, recent = pre ++ o :: post ∧ c.evidenceMax = o.2 ∧ c.evidenceMaxVector = some o.1 ∧ (∀ q ∈ pre, q.2 < o.2) ∧
    ∀ q ∈ post, q.2 ≤ o.2
  ok : env.Ok → 0 < sigma → ∀ g ∈ c.clusters, HypersOk env sigma g.inputs g.outputs g.hypers
  bounds : ∀ e ∈ obs, InBounds dims e.1.1

theorem init_knows {c : GaussCluster d} {dims : List Int} {c' : GaussCluster d} (h : GaussCluster.initClusters env sigma { c with dims := dims } = .ok c') :
    c'.Knows env sigma dims [] [] := by
  unfold GaussCluster.initClusters at h
  rw [numClusters_spec] at h
  split_ifs at h with hpos
  · simp only [Outcome.bind, Outcome.ok.injEq, Nat.one_mul] at h
    subst h
    refine ⟨rfl, hpos, rfl, by simp, ?_, rfl, by simp, by simp, ?_, by simp⟩
    · simp only [List.map_replicate]
      symm
      rw [List.eq_replicate_iff]
      refine ⟨by rw [List.length_map, allVectors_length hpos], ?_⟩
      intro b hb
      obtain ⟨x, -, rfl⟩ := List.mem_map.1 hb
      rfl
    · intro henv hsig g hg
      rw [(List.mem_replicate.1 hg).2]
      exact (empty_knows _ _ _ _).ok henv hsig
  · simp [Outcome.bind] at h

theorem tune_evidence (r : ℕ) (lo hi : ℝ) (gs : List (GaussProc d)) :
    (tuneClusters env sigma r lo hi gs).map GaussProc.getEvidence = gs.map GaussProc.getEvidence := by
  unfold tuneClusters
  simp only [List.map_map]
  rfl

theorem addUntuned_evidence (g : GaussProc d) (y : Fin d → ℝ) (o : ℝ) : (g.addUntuned y o).getEvidence = g.getEvidence ++ [(y, o)] := by
  unfold GaussProc.addUntuned GaussProc.getEvidence
  simp only
  rw [List.ofFn_succ']
  simp [List.concat_eq_append]

theorem evidenceFor_append (x : List Int) (l : List ((List Int × (Fin d → ℝ)) × ℝ)) (e : (List Int × (Fin d → ℝ)) × ℝ) :
    evidenceFor x (l ++ [e]) = evidenceFor x l ++ if e.1.1 = x then [(e.1.2, e.2)] else [] := by
  unfold evidenceFor
  rw [List.filterMap_append]
  congr 1
  split_ifs with h
  · simp [h]
  · simp [h]

theorem modify_evidence (gs : List (GaussProc d)) (k : ℕ) (y : Fin d → ℝ) (o : ℝ) :
    (gs.modify k fun g => g.addUntuned y o).map GaussProc.getEvidence = (gs.map GaussProc.getEvidence).modify k (· ++ [(y, o)]) := by
  apply List.ext_getElem?
  intro i
  simp only [List.getElem?_map, List.getElem?_modify]
  split_ifs with h
  · cases gs[i]? with
    | none => rfl
    | some g => simp [addUntuned_evidence]
  · cases gs[i]? <;> rfl

theorem getElem_lt_prod {c : GaussCluster d} {dims : List Int} {obs recent} (hk : c.Knows env sigma dims obs recent) {x : List Int} {k : ℕ}
    (hidx : getClusterIndex dims x = .ok k) : k < c.clusters.length := by
  rw [hk.length]
  have hb := getClusterIndex_iff.1 ⟨k, hidx⟩
  rw [getClusterIndex_eq hb] at hidx
  exact clusterIndex_range hb hidx

theorem addEvidence_cluster_knows {c c' : GaussCluster d} {dims : List Int} {obs recent} (hk : c.Knows env sigma dims obs recent)
    {x : List Int} {y : Fin d → ℝ} {o : ℝ} (h : c.addEvidence env sigma x y o = .ok c') :
    c'.Knows env sigma dims (obs ++ [((x, y), o)]) (recent ++ [((x, y), o)]) := by
  unfold GaussCluster.addEvidence at h
  rw [hk.dims_eq] at h
  obtain ⟨k, hidx, h⟩ := Outcome.bind_ok.1 h
  simp only [Outcome.ok.injEq] at h
  have hb := getClusterIndex_iff.1 ⟨k, hidx⟩
  have hlt := getElem_lt_prod hk hidx
  have hn := hk.num
  obtain ⟨ext, hext⟩ : ∃ ext : ℝ × ℝ × Option (List Int × (Fin d → ℝ)), ext =
      (if c.numEvidence = 0 then (o, o, some (x, y))
      else if o < c.evidenceMin then (o, c.evidenceMax, c.evidenceMaxVector)
      else if o > c.evidenceMax then (c.evidenceMin, o, some (x, y))
      else (c.evidenceMin, c.evidenceMax, c.evidenceMaxVector)) := ⟨_, rfl⟩
  rw [← hext] at h
  have hleast : (∃ q ∈ recent ++ [((x, y), o)], q.2 = ext.1) ∧ ∀ q ∈ recent ++ [((x, y), o)], ext.1 ≤ q.2 := by
    by_cases h0 : c.numEvidence = 0
    · have ho : recent = [] := List.length_eq_zero_iff.1 (by omega)
      subst ho
      rw [hext, if_pos h0]
      simp
    · have hne : recent ≠ [] := by rintro rfl; simp at hn; exact h0 hn
      obtain ⟨⟨q, ho1, ho2⟩, hle⟩ := hk.least hne
      rw [hext, if_neg h0]
      split_ifs with h1 h2
      · refine ⟨⟨((x, y), o), by simp, rfl⟩, fun q hq => ?_⟩
        rcases List.mem_append.1 hq with hq | hq
        · have := hle q hq; simp only; linarith
        · rw [List.mem_singleton.1 hq]
      · refine ⟨⟨q, by simp [ho1], ho2⟩, fun q hq => ?_⟩
        rcases List.mem_append.1 hq with hq | hq
        · exact hle q hq
        · rw [List.mem_singleton.1 hq]; exact not_lt.1 h1
      · refine ⟨⟨q, by simp [ho1], ho2⟩, fun q hq => ?_⟩
        rcases List.mem_append.1 hq with hq | hq
        · exact hle q hq
        · rw [List.mem_singleton.1 hq]; exact not_lt.1 h1
  have hgreatest : ∃ pre q post, recent ++ [((x, y), o)] = pre ++ q :: post ∧ ext.2.1 = q.2 ∧ ext.2.2 = some q.1 ∧ (∀ p ∈ pre, p.2 < q.2) ∧
      ∀ p ∈ post, p.2 ≤ q.2 := by
    by_cases h0 : c.numEvidence = 0
    · have ho : recent = [] := List.length_eq_zero_iff.1 (by omega)
      subst ho
      rw [hext, if_pos h0]
      exact ⟨[], ((x, y), o), [], rfl, rfl, rfl, by simp, by simp⟩
    · have hne : recent ≠ [] := by rintro rfl; simp at hn; exact h0 hn
      obtain ⟨pre, q, post, e1, e2, e3, e4, e5⟩ := hk.greatest hne
      obtain ⟨⟨p, hp1, hp2⟩, hle⟩ := hk.least hne
      have hall : ∀ p ∈ recent, p.2 ≤ q.2 := by
        intro p hp
        rw [e1] at hp
        rcases List.mem_append.1 hp with hp | hp
        · exact (e4 p hp).le
        · rcases List.mem_cons.1 hp with rfl | hp
          · exact le_refl _
          · exact e5 p hp
      have hmm : c.evidenceMin ≤ q.2 := hle q (by rw [e1]; simp)
      rw [hext, if_neg h0]
      split_ifs with h1 h2
      · refine ⟨pre, q, post ++ [((x, y), o)], by rw [e1]; simp, e2, e3, e4, fun p hp => ?_⟩
        rcases List.mem_append.1 hp with hp | hp
        · exact e5 p hp
        · rw [List.mem_singleton.1 hp]; simp only; linarith
      · refine ⟨recent, ((x, y), o), [], rfl, rfl, rfl, fun p hp => ?_, by simp⟩
        have := hall p hp
        rw [e2] at h2
        simp only
        linarith
      · refine ⟨pre, q, post ++ [((x, y), o)], by rw [e1]; simp, e2, e3, e4, fun p hp => ?_⟩
        rcases List.mem_append.1 hp with hp | hp
        · exact e5 p hp
        · rw [List.mem_singleton.1 hp, ← e2]; exact not_lt.1 h2
  have hlohi : ext.1 ≤ ext.2.1 := by
    obtain ⟨pre, q, post, e1, e2, -, -, -⟩ := hgreatest
    rw [e2]
    exact hleast.2 q (by rw [e1]; simp)
  subst h
  refine ⟨rfl, hk.pos, hk.vectors, ?_, ?_, by simp [hn], fun _ => hleast, fun _ => hgreatest, ?_, ?_⟩
  · show (tuneClusters env sigma c.draws ext.1 ext.2.1 (c.clusters.modify k fun g => g.addUntuned y o)).length = _
    have := congrArg List.length (tune_evidence (env := env) (sigma := sigma) c.draws ext.1 ext.2.1 (c.clusters.modify k fun g => g.addUntuned y o))
    rw [List.length_map, List.length_map, List.length_modify] at this
    rw [this, hk.length]
  · show (tuneClusters env sigma c.draws ext.1 ext.2.1 (c.clusters.modify k fun g => g.addUntuned y o)).map GaussProc.getEvidence = _
    rw [tune_evidence, modify_evidence, hk.evidence]
    apply List.ext_getElem?
    intro i
    rw [List.getElem?_modify, List.getElem?_map, List.getElem?_map]
    cases hv : (allVectors dims)[i]? with
    | none => simp
    | some v =>
      simp only [Option.map_some]
      rw [evidenceFor_append]
      rw [allVectors_get hk.pos] at hv
      by_cases hki : k = i
      · subst hki
        have hxv : x = v := by
          have h1 := (allVectors_get hk.pos).2 hidx
          have h2 := (allVectors_get hk.pos).2 hv
          rw [h1] at h2
          exact Option.some.inj h2
        rw [if_pos hxv]
        simp
      · rw [if_neg, List.append_nil]
        · simp [hki]
        · rintro rfl
          rw [hidx] at hv
          simp only [Outcome.ok.injEq] at hv
          exact hki hv
  · intro henv hsig g hg
    rw [tuneClusters_eq henv hsig hlohi] at hg
    obtain ⟨g0, hg0, rfl⟩ := List.mem_map.1 hg
    exact normalized_ok henv hsig hlohi _ (List.ne_nil_of_mem hg0) g0
  · intro e he
    rcases List.mem_append.1 he with he | he
    · exact hk.bounds e he
    · rw [List.mem_singleton.1 he]; exact hb

theorem clear_knows {c : GaussCluster d} {dims : List Int} {obs recent} (hk : c.Knows env sigma dims obs recent) :
    (c.clear env sigma).Knows env sigma dims obs [] :=
  ⟨hk.dims_eq, hk.pos, hk.vectors, hk.length, hk.evidence, rfl, by simp, by simp, hk.ok, hk.bounds⟩

theorem cluster_run_knows {dims : List Int} {as : List (ClusterAction d)} {c : GaussCluster d} (h : GaussCluster.run env sigma dims as = .ok c) :
    c.Knows env sigma (clusterDims dims as) (sinceDimensions as) (sinceClear as) := by
  have gen : ∀ (as : List (ClusterAction d)) (c0 : GaussCluster d) (dims : List Int) (obs recent : List ((List Int × (Fin d → ℝ)) × ℝ)),
      c0.Knows env sigma dims obs recent → GaussCluster.steps env sigma as c0 = .ok c →
      c.Knows env sigma (clusterDims dims as)
        (as.foldl (fun acc a => match a with
          | .setDimensions _ => []
          | .clear => acc
          | .addEvidence x y o => acc ++ [((x, y), o)]) obs)
        (as.foldl (fun acc a => match a with
          | .setDimensions _ => []
          | .clear => []
          | .addEvidence x y o => acc ++ [((x, y), o)]) recent) := by
    intro as
    induction as with
    | nil =>
      intro c0 dims obs recent hk hs
      simp only [GaussCluster.steps, Outcome.ok.injEq] at hs
      subst hs
      exact hk
    | cons a as ih =>
      intro c0 dims obs recent hk hs
      unfold GaussCluster.steps at hs
      obtain ⟨c1, h1, h2⟩ := Outcome.bind_ok.1 hs
      unfold clusterDims
      rw [List.foldl_cons, List.foldl_cons, List.foldl_cons]
      cases a with
      | setDimensions new => exact ih c1 new [] [] (init_knows h1) h2
      | clear =>
        simp only [GaussCluster.step, Outcome.ok.injEq] at h1
        subst h1
        exact ih _ dims obs [] (clear_knows hk) h2
      | addEvidence x y o => exact ih c1 dims _ _ (addEvidence_cluster_knows hk h1) h2
  unfold GaussCluster.run at h
  obtain ⟨c0, h1, h2⟩ := Outcome.bind_ok.1 h
  exact gen as c0 dims [] [] (init_knows (c := ⟨dims, [], [], 0, 0, none, 0, 0⟩) h1) h2

end

end Verif
