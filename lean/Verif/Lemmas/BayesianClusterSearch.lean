import Verif.Model.BayesianClusterSearch
import Verif.Lemmas.ShrinkingPhase
/-! Bayesian cluster search. -/
namespace Verif
open Spec

section
variable {C V : Type} [DecidableEq C] [LinearOrder V] {P : ClusterSearchParams C V}

/-- The configurations that are sampled, in the queue and not rejected. -/
def ClusterSearchParams.Usable (P : ClusterSearchParams C V) (invalid : List C) (it k : Nat) (queue : List C) (c : C) : Prop :=
  c ∈ P.sample k it ∧ c ∈ queue ∧ c ∉ invalid

/-- The loop over the attempts. -/
theorem cluster_attempts_spec (hs : P.Ok) (queue : List C) : ∀ (n i : Nat) (s : ClusterSearch C), i + n = clusterMaxAttempts →
    (∃ k < n, (∀ k' < k, ∀ c, ¬ P.Usable s.invalid s.iteration (s.draws + k') queue c) ∧
      ∃ X : List C, ClusterSearch.attempts P queue n i s = (X.reverse, { s with draws := s.draws + k + 1 }) ∧ X ≠ [] ∧ X.Nodup ∧
        (∀ c, c ∈ X ↔ P.Usable s.invalid s.iteration (s.draws + k) queue c) ∧
        X.Pairwise fun a b => P.acquisition (s.draws + k) s.evidence s.iteration a ≤ P.acquisition (s.draws + k) s.evidence s.iteration b) ∨
    ((∀ k < n, ∀ c, ¬ P.Usable s.invalid s.iteration (s.draws + k) queue c) ∧
      ClusterSearch.attempts P queue n i s = (queue, { s with draws := s.draws + n })) := by
  intro n
  induction n with
  | zero => intro i s _; exact .inr ⟨by simp, rfl⟩
  | succ n ih =>
    intro i s hi
    obtain ⟨X, hX⟩ : ∃ X, X = (s.sampleAcquisitions P).filter fun c => !(decide (c ∈ s.invalid) || !decide (c ∈ queue)) := ⟨_, rfl⟩
    have hmem : ∀ c, c ∈ X ↔ P.Usable s.invalid s.iteration s.draws queue c := by
      intro c
      rw [hX, List.mem_filter]
      unfold ClusterSearch.sampleAcquisitions
      rw [(hs.sorts _ _).1.mem_iff]
      unfold ClusterSearchParams.Usable
      simp
      tauto
    have hi' : ¬ i = clusterMaxAttempts := by omega
    unfold ClusterSearch.attempts
    simp only [← hX, if_neg hi']
    by_cases he : X = []
    · subst he
      have hno : ∀ c, ¬ P.Usable s.invalid s.iteration s.draws queue c := fun c hc => by simpa using (hmem c).2 hc
      simp only [List.isEmpty_nil, if_true]
      have e1 : ∀ k, s.draws + 1 + k = s.draws + (k + 1) := fun k => by omega
      rcases ih (i + 1) { s with draws := s.draws + 1 } (by omega) with ⟨k, hk, h1, Y, h2, h3, h4, h5, h6⟩ | ⟨h1, h2⟩
      · left
        simp only [e1] at h1 h5 h6
        refine ⟨k + 1, by omega, ?_, Y, ?_, h3, h4, h5, h6⟩
        · intro k' hk' c
          cases k' with
          | zero => exact hno c
          | succ k' => exact h1 k' (by omega) c
        · rw [h2]
          simp only [e1]
      · right
        simp only [e1] at h1 h2
        refine ⟨?_, h2⟩
        intro k hk c
        cases k with
        | zero => exact hno c
        | succ k => exact h1 k (by omega) c
    · have hne : X.isEmpty = false := by simpa using he
      simp only [hne, Bool.false_eq_true, if_false]
      left
      refine ⟨0, by omega, by simp, X, rfl, he, ?_, hmem, ?_⟩
      · rw [hX]
        apply List.Nodup.filter
        exact (hs.sorts _ _).1.nodup_iff.2 (hs.nodup _ _)
      · rw [hX]
        apply List.Pairwise.filter
        exact (hs.sorts _ _).2

/-- The strategy makes the queue `c :: L'` out of `L`, after `D` was measured in this phase: the sampled configurations of `L`, the smallest acquisition first, or
everything as it was if ten samples contain nothing of the queue. The predictions rest on the evidence `E` of all phases. -/
def ClusterChoice (P : ClusterSearchParams C V) (D : List (C × Int)) (L : List C) (c : C) (L' : List C) : Prop :=
  ∃ (E : List (C × Evidence)) (k it : Nat), (D <:+ E.map fun e => (e.1, e.2.value)) ∧
    (((∀ x, x ∈ c :: L' ↔ x ∈ P.sample k it ∧ x ∈ L) ∧ ∀ x ∈ P.sample k it, x ∈ L → P.acquisition k E it c ≤ P.acquisition k E it x) ∨
    ((∀ i < 10, ∀ x ∈ P.sample (k + i) it, x ∉ L) ∧ L = c :: L'))

theorem cluster_attempts_choice (hs : P.Ok) {L : List C} (hL : L ≠ []) {s : ClusterSearch C} (hinv : s.invalid = []) {D : List (C × Int)}
    (hD : D <:+ s.evidence.map fun e => (e.1, e.2.value)) :
    ∃ c L' k, ClusterSearch.attempts P L.reverse clusterMaxAttempts 0 s = ((c :: L').reverse, { s with draws := k }) ∧ (c :: L').Subperm L ∧
      ClusterChoice P D L c L' := by
  rcases cluster_attempts_spec hs L.reverse clusterMaxAttempts 0 s (by simp) with ⟨k, hk, h1, X, h2, h3, h4, h5, h6⟩ | ⟨h1, h2⟩
  · cases X with
    | nil => exact absurd rfl h3
    | cons c X =>
      have hsub : (c :: X).Subperm L := by
        refine List.subperm_of_subset h4 ?_
        intro x hx
        have := ((h5 x).1 hx).2.1
        simpa using this
      refine ⟨c, X, _, h2, hsub, s.evidence, s.draws + k, s.iteration, hD, .inl ⟨fun x => ?_, ?_⟩⟩
      · rw [h5 x]
        unfold ClusterSearchParams.Usable
        rw [hinv, List.mem_reverse]
        simp
      · intro c' hc' hL'
        have hc : c' ∈ c :: X := (h5 c').2 ⟨hc', by simpa using hL', by rw [hinv]; simp⟩
        rcases List.mem_cons.1 hc with rfl | hc
        · exact le_refl _
        · exact (List.pairwise_cons.1 h6).1 c' hc
  · cases L with
    | nil => exact absurd rfl hL
    | cons c L =>
      refine ⟨c, L, _, h2, List.Subperm.refl _, s.evidence, s.draws, s.iteration, hD, .inr ⟨?_, rfl⟩⟩
      intro i hi c' hc' hL'
      exact h1 i hi c' ⟨hc', List.mem_reverse.2 hL', by rw [hinv]; simp⟩

theorem cluster_attempts_nil (hs : P.Ok) {s : ClusterSearch C} :
    ClusterSearch.attempts P [] clusterMaxAttempts 0 s = ([], { s with draws := s.draws + clusterMaxAttempts }) := by
  rcases cluster_attempts_spec hs [] clusterMaxAttempts 0 s (by simp) with ⟨k, hk, h1, X, h2, h3, h4, h5, h6⟩ | ⟨h1, h2⟩
  · obtain ⟨x, hx⟩ := List.exists_mem_of_ne_nil X h3
    have := ((h5 x).1 hx).2.1
    simp at this
  · exact h2

/-- The first phase: everything is measured, in the order of the search space. -/
theorem cluster_first {cfg : TunerCfg (ClusterSearch C) C} (hst : cfg.strategies = [clusterSearch P]) {S : List C} (hS : S ≠ []) :
    Shrinking cfg S S.length (fun ph => ph = 0) (fun s => s.invalid = [] ∧ s.thrown = false)
      (fun _ s => s.firstPhase = true ∧ s.invalid = [] ∧ s.thrown = false) (fun _ L c L' => L = c :: L') (fun _ L => L = []) := by
  constructor
  · rintro it ph ev s rfl ⟨h1, h2⟩
    cases S with
    | nil => exact absurd rfl hS
    | cons c L =>
      refine ⟨c, L, { s with iteration := it, num := 0, firstPhase := true }, ?_, List.Subperm.refl _, ⟨rfl, h1, h2⟩, rfl⟩
      rw [hst]
      simp [runReset, clusterSearch, ClusterSearch.reset]
  · rintro D s c it ph w ⟨h1, h2⟩
    rw [hst]
    exact ⟨h1, h2⟩
  · rintro D s L ev hlen ⟨h0, h1, h2⟩
    cases L with
    | nil =>
      left
      refine ⟨s, ?_, ⟨h1, h2⟩, rfl⟩
      rw [hst]
      simp [runOptimize, clusterSearch, ClusterSearch.optimize, h0]
    | cons c L =>
      right
      refine ⟨c, L, s, ?_, List.Subperm.refl _, ⟨h0, h1, h2⟩, rfl, by simp at hlen; omega⟩
      rw [hst]
      simp [runOptimize, clusterSearch, ClusterSearch.optimize, h0]

/-- The later phases. -/
theorem cluster_later {cfg : TunerCfg (ClusterSearch C) C} (hst : cfg.strategies = [clusterSearch P]) (hs : P.Ok) (hpos : 0 < P.maxEvidence)
    {S : List C} (hS : S ≠ []) :
    Shrinking cfg S P.maxEvidence (fun ph => ph ≠ 0) (fun s => s.invalid = [] ∧ s.thrown = false)
      (fun D s => (D <:+ s.evidence.map fun e => (e.1, e.2.value)) ∧ s.num = D.length ∧ s.firstPhase = false ∧ s.invalid = [] ∧ s.thrown = false)
      (ClusterChoice P) (fun D L => P.maxEvidence ≤ D.length ∨ L = []) := by
  constructor
  · rintro it ph ev s hph ⟨h1, h2⟩
    obtain ⟨c, L, k, a1, a2, a3⟩ := cluster_attempts_choice hs hS (s := { s with iteration := it, num := 0, firstPhase := false }) h1 (D := []) List.nil_suffix
    refine ⟨c, L, ⟨s.evidence, s.invalid, false, it, 0, k, s.thrown⟩, ?_, a2, ⟨List.nil_suffix, rfl, rfl, h1, h2⟩, a3⟩
    rw [hst]
    simp only [runReset, clusterSearch, ClusterSearch.reset, hph, decide_false, Bool.not_false, if_true, ClusterSearch.optimize, Bool.false_eq_true, if_false,
      ge_iff_le, if_neg (show ¬ P.maxEvidence ≤ 0 by omega), a1]
    simp
  · rintro D s c it ph w ⟨h1, h2, h3, h4, h5⟩
    rw [hst]
    refine ⟨?_, by simp [clusterSearch, h2], h3, h4, h5⟩
    simp only [clusterSearch, List.foldl_cons, List.foldl_nil, List.map_append, List.map_cons, List.map_nil]
    obtain ⟨t, ht⟩ := h1
    exact ⟨t, by rw [← ht, List.append_assoc]⟩
  · rintro D s L ev - ⟨h1, h2, h3, h4, h5⟩
    by_cases hD : P.maxEvidence ≤ D.length
    · left
      refine ⟨s, ?_, ⟨h4, h5⟩, .inl hD⟩
      rw [hst]
      simp [runOptimize, clusterSearch, ClusterSearch.optimize, h3, h2, hD]
    · by_cases hL : L = []
      · subst hL
        left
        refine ⟨{ s with draws := s.draws + clusterMaxAttempts }, ?_, ⟨h4, h5⟩, .inr rfl⟩
        rw [hst]
        simp only [runOptimize, clusterSearch, ClusterSearch.optimize, h3, h2, ge_iff_le, if_neg hD, Bool.false_eq_true, if_false, List.reverse_nil, cluster_attempts_nil hs]
        simp
      · right
        obtain ⟨c, L', k, a1, a2, a3⟩ := cluster_attempts_choice hs hL (s := s) h4 h1
        refine ⟨c, L', { s with draws := k }, ?_, a2, ⟨h1, h2, h3, h4, h5⟩, a3, by omega⟩
        rw [hst]
        simp only [runOptimize, clusterSearch, ClusterSearch.optimize, h3, h2, ge_iff_le, if_neg hD, Bool.false_eq_true, if_false, a1]
        simp

end

end Verif
