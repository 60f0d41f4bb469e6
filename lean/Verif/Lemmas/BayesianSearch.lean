import Verif.Model.BayesianSearch
import Verif.Lemmas.ShrinkingPhase
/-! Bayesian search. -/
namespace Verif

section
variable {C V : Type} [DecidableEq C]

theorem firstOccurrences_spec : ∀ (l seen : List C), (firstOccurrences seen l).Nodup ∧ ∀ x, x ∈ firstOccurrences seen l ↔ x ∈ l ∧ x ∉ seen := by
  intro l
  induction l with
  | nil => intro seen; simp [firstOccurrences]
  | cons a l ih =>
    intro seen
    unfold firstOccurrences
    split_ifs with h
    · refine ⟨(ih seen).1, fun x => ?_⟩
      rw [(ih seen).2 x]
      constructor
      · rintro ⟨h1, h2⟩; exact ⟨by simp [h1], h2⟩
      · rintro ⟨h1, h2⟩
        rcases List.mem_cons.1 h1 with rfl | h1
        · exact absurd h h2
        · exact ⟨h1, h2⟩
    · obtain ⟨i1, i2⟩ := ih (a :: seen)
      refine ⟨?_, fun x => ?_⟩
      · rw [List.nodup_cons]
        refine ⟨?_, i1⟩
        rw [i2]
        simp
      · rw [List.mem_cons, i2]
        by_cases hx : x = a
        · subst hx; simp [h]
        · simp [hx]

variable [LinearOrder V] {P : BayesParams C V}

/-- The configurations that are sampled, in the queue and not known to be invalid. -/
def Sampled (P : BayesParams C V) (invalid : List C) (k : Nat) (queue : List C) (c : C) : Prop := c ∈ P.sample k ∧ c ∈ queue ∧ c ∉ invalid

/-- The loop over the attempts. -/
theorem attempts_spec (hs : P.Sorts) (queue : List C) : ∀ (n i : Nat) (s : BayesState C), i + n = bayesMaxAttempts →
    (∃ k < n, (∀ k' < k, ∀ c, ¬ Sampled P s.invalid (s.draws + k') queue c) ∧
      ∃ X : List C, BayesState.attempts P queue n i s = (X.reverse, { s with draws := s.draws + k + 1 }) ∧ X ≠ [] ∧ X.Nodup ∧
        (∀ c, c ∈ X ↔ Sampled P s.invalid (s.draws + k) queue c) ∧
        X.Pairwise fun a b => P.acquisition s.tunes s.evidence a ≤ P.acquisition s.tunes s.evidence b) ∨
    ((∀ k < n, ∀ c, ¬ Sampled P s.invalid (s.draws + k) queue c) ∧
      BayesState.attempts P queue n i s = (queue, { s with draws := s.draws + n })) := by
  intro n
  induction n with
  | zero => intro i s _; exact .inr ⟨by simp, rfl⟩
  | succ n ih =>
    intro i s hi
    obtain ⟨X, hX⟩ : ∃ X, X = (s.sampleAcquisitions P).filter fun c => !(decide (c ∈ s.invalid) || !decide (c ∈ queue)) := ⟨_, rfl⟩
    have hmem : ∀ c, c ∈ X ↔ Sampled P s.invalid s.draws queue c := by
      intro c
      rw [hX, List.mem_filter]
      unfold BayesState.sampleAcquisitions
      rw [(hs _ _).1.mem_iff, (firstOccurrences_spec _ _).2]
      unfold Sampled
      simp
      tauto
    have hi' : ¬ i = bayesMaxAttempts := by omega
    unfold BayesState.attempts
    simp only [← hX, if_neg hi']
    by_cases he : X = []
    · subst he
      have hno : ∀ c, ¬ Sampled P s.invalid s.draws queue c := fun c hc => by simpa using (hmem c).2 hc
      simp only [List.isEmpty_nil, if_true]
      rcases ih (i + 1) { s with draws := s.draws + 1 } (by omega) with ⟨k, hk, h1, Y, h2, h3, h4, h5, h6⟩ | ⟨h1, h2⟩
      · left
        refine ⟨k + 1, by omega, ?_, Y, ?_, h3, h4, ?_, h6⟩
        · intro k' hk' c
          cases k' with
          | zero => exact hno c
          | succ k' =>
            have := h1 k' (by omega) c
            simpa [Nat.add_assoc, Nat.add_comm 1 k'] using this
        · rw [h2]
          simp [Nat.add_assoc, Nat.add_comm 1 k]
        · intro c
          rw [h5 c]
          simp [Nat.add_assoc, Nat.add_comm 1 k]
      · right
        refine ⟨?_, ?_⟩
        · intro k hk c
          cases k with
          | zero => exact hno c
          | succ k =>
            have := h1 k (by omega) c
            simpa [Nat.add_assoc, Nat.add_comm 1 k] using this
        · rw [h2]
          simp [Nat.add_assoc, Nat.add_comm 1 n]
    · have hne : X.isEmpty = false := by simpa using he
      simp only [hne, Bool.false_eq_true, if_false]
      left
      refine ⟨0, by omega, by simp, X, rfl, he, ?_, hmem, ?_⟩
      · rw [hX]
        apply List.Nodup.filter
        unfold BayesState.sampleAcquisitions
        exact (hs _ _).1.nodup_iff.2 (firstOccurrences_spec _ _).1
      · rw [hX]
        apply List.Pairwise.filter
        exact (hs _ _).2

/-- The strategy makes the queue `c :: L'` out of `L`: the sampled configurations of `L`, the smallest acquisition first, or everything as it was if
ten samples contain nothing of the queue. -/
def BayesChoice (P : BayesParams C V) (D : List (C × Int)) (L : List C) (c : C) (L' : List C) : Prop :=
  ∃ r k, ((∀ x, x ∈ c :: L' ↔ x ∈ P.sample k ∧ x ∈ L) ∧ ∀ x ∈ P.sample k, x ∈ L → P.acquisition r D c ≤ P.acquisition r D x) ∨
    ((∀ i < 10, ∀ x ∈ P.sample (k + i), x ∉ L) ∧ L = c :: L')

theorem attempts_choice (hs : P.Sorts) {L : List C} (hL : L ≠ []) {s : BayesState C} (hinv : s.invalid = []) :
    ∃ c L' k, BayesState.attempts P L.reverse bayesMaxAttempts 0 s = ((c :: L').reverse, { s with draws := k }) ∧ (c :: L').Subperm L ∧
      BayesChoice P s.evidence L c L' := by
  rcases attempts_spec hs L.reverse bayesMaxAttempts 0 s (by simp) with ⟨k, hk, h1, X, h2, h3, h4, h5, h6⟩ | ⟨h1, h2⟩
  · cases X with
    | nil => exact absurd rfl h3
    | cons c X =>
      have hsub : (c :: X).Subperm L := by
        refine List.subperm_of_subset h4 ?_
        intro x hx
        have := ((h5 x).1 hx).2.1
        simpa using this
      refine ⟨c, X, _, h2, hsub, s.tunes, s.draws + k, .inl ⟨fun x => ?_, ?_⟩⟩
      · rw [h5 x]
        unfold Sampled
        rw [hinv, List.mem_reverse]
        simp
      · intro c' hc' hL'
        have hc : c' ∈ c :: X := (h5 c').2 ⟨hc', by simpa using hL', by rw [hinv]; simp⟩
        rcases List.mem_cons.1 hc with rfl | hc
        · exact le_refl _
        · exact (List.pairwise_cons.1 h6).1 c' hc
  · cases L with
    | nil => exact absurd rfl hL
    | cons c L =>
      refine ⟨c, L, _, h2, List.Subperm.refl _, s.tunes, s.draws, .inr ⟨?_, rfl⟩⟩
      intro i hi c' hc' hL'
      exact h1 i hi c' ⟨hc', List.mem_reverse.2 hL', by rw [hinv]; simp⟩

theorem attempts_nil (hs : P.Sorts) {s : BayesState C} :
    BayesState.attempts P [] bayesMaxAttempts 0 s = ([], { s with draws := s.draws + bayesMaxAttempts }) := by
  rcases attempts_spec hs [] bayesMaxAttempts 0 s (by simp) with ⟨k, hk, h1, X, h2, h3, h4, h5, h6⟩ | ⟨h1, h2⟩
  · obtain ⟨x, hx⟩ := List.exists_mem_of_ne_nil X h3
    have := ((h5 x).1 hx).2.1
    simp at this
  · exact h2

/-- Bayesian search as the only strategy. -/
theorem bayes_shrinking {cfg : TunerCfg (BayesState C) C} (hst : cfg.strategies = [bayesianSearch P]) (hs : P.Sorts) (hpos : 0 < P.maxEvidence)
    {S : List C} (hS : S ≠ []) :
    Shrinking cfg S P.maxEvidence (fun _ => True) (fun s => s.invalid = [] ∧ s.thrown = false) (fun D s => s.evidence = D ∧ s.invalid = [] ∧ s.thrown = false)
      (BayesChoice P) (fun D L => P.maxEvidence ≤ D.length ∨ L = []) := by
  constructor
  · rintro it ph ev s - ⟨h1, h2⟩
    obtain ⟨c, L, k, a1, a2, a3⟩ := attempts_choice hs hS (s := { s with evidence := [], tunes := s.tunes + 1 }) h1
    refine ⟨c, L, ⟨[], s.invalid, s.tunes + 1, k, s.thrown⟩, ?_, a2, ⟨rfl, h1, h2⟩, a3⟩
    rw [hst]
    simp only [runReset, bayesianSearch, BayesState.optimize, List.length_nil, ge_iff_le, if_neg (show ¬ P.maxEvidence ≤ 0 by omega), a1]
    simp
  · rintro D s c it ph w ⟨rfl, h1, h2⟩
    rw [hst]
    exact ⟨rfl, h1, h2⟩
  · rintro D s L ev - ⟨rfl, h1, h2⟩
    by_cases hD : P.maxEvidence ≤ s.evidence.length
    · left
      refine ⟨s, ?_, ⟨h1, h2⟩, .inl hD⟩
      rw [hst]
      simp [runOptimize, bayesianSearch, BayesState.optimize, hD]
    · by_cases hL : L = []
      · subst hL
        left
        refine ⟨{ s with draws := s.draws + bayesMaxAttempts }, ?_, ⟨h1, h2⟩, .inr rfl⟩
        rw [hst]
        simp only [runOptimize, bayesianSearch, BayesState.optimize, ge_iff_le, if_neg hD, List.reverse_nil, attempts_nil hs]
        simp
      · right
        obtain ⟨c, L', k, a1, a2, a3⟩ := attempts_choice hs hL (s := s) h1
        refine ⟨c, L', { s with draws := k }, ?_, a2, ⟨rfl, h1, h2⟩, a3, by omega⟩
        rw [hst]
        simp only [runOptimize, bayesianSearch, BayesState.optimize, ge_iff_le, if_neg hD, a1]
        simp

end

end Verif
