import Verif.Model.LCInteract
import Verif.Lemmas.CellFunctor
import Verif.Lemmas.Remainder
import Verif.Spec.CellPairs
/-! Contributions of the functor calls of a linked-cells traversal. -/
namespace Verif
open Spec

section
variable {P : Type} [DecidableEq P]

theorem timesReceived_flatMap_indicator {X : Type} {l : List X} {g : X → List (PairCall P)} {a b : P} {q : X → Bool}
    (h : ∀ x ∈ l, timesReceived (g x) a b = if q x then 1 else 0) :
    timesReceived (l.flatMap g) a b = l.countP q := by
  unfold timesReceived at *
  rw [contributions_flatMap]
  exact countP_flatMap_indicator h

theorem timesReceived_flatMap_le {X : Type} {l : List X} {g : X → List (PairCall P)} {a b : P} {q : X → Bool}
    (h : ∀ x ∈ l, timesReceived (g x) a b ≤ if q x then 1 else 0) :
    timesReceived (l.flatMap g) a b ≤ l.countP q := by
  induction l with
  | nil => simp [timesReceived, contributions]
  | cons x l ih =>
    have h1 := h x (by simp)
    have h2 := ih (fun y hy => h y (by simp [hy]))
    have : timesReceived ((x :: l).flatMap g) a b = timesReceived (g x) a b + timesReceived (l.flatMap g) a b := by
      simp [timesReceived, contributions_append, List.flatMap_cons]
    rw [this, List.countP_cons]
    omega

theorem timesReceived_zero {calls : List (PairCall P)} {a b : P}
    (h : ∀ c ∈ calls, ¬ (c.p = a ∧ c.q = b) ∧ ¬ (c.p = b ∧ c.q = a)) : timesReceived calls a b = 0 := by
  unfold timesReceived
  rw [List.count_eq_zero]
  intro hc
  simp only [contributions, List.mem_flatMap] at hc
  obtain ⟨c, hc, hm⟩ := hc
  have := h c hc
  rw [List.mem_cons] at hm
  rcases hm with hm | hm
  · rw [Prod.mk.injEq] at hm; exact this.1 ⟨hm.1.symm, hm.2.symm⟩
  · split at hm
    · rw [List.mem_singleton, Prod.mk.injEq] at hm; exact this.2 ⟨hm.2.symm, hm.1.symm⟩
    · exact absurd hm List.not_mem_nil

theorem received_interactParticles {isHalo : P → Bool} (newton3 : Bool) {t : P × P} {a b : P} (hab : a ≠ b)
    (hh : isHalo a = false) :
    timesReceived (interactParticles isHalo newton3 t.1 t.2) a b = if isPair id a b t then 1 else 0 := by
  obtain ⟨p, q⟩ := t
  simp only [interactParticles, isPair, id]
  unfold timesReceived contributions
  cases newton3
  · by_cases h1 : p = a
    · subst h1
      by_cases h2 : q = b
      · subst h2
        by_cases h3 : isHalo q <;> simp [hh, h3, hab, Ne.symm hab, List.count_cons]
      · by_cases h3 : isHalo q <;> simp [hh, h3, hab, h2, List.count_cons]
    · by_cases h2 : q = a
      · subst h2
        by_cases h4 : p = b
        · subst h4
          by_cases h3 : isHalo p <;> simp [hh, h3, hab, Ne.symm hab, List.count_cons]
        · by_cases h3 : isHalo p <;> simp [hh, h3, h1, h4, List.count_cons]
      · by_cases h3 : isHalo p <;> by_cases h4 : isHalo q <;> simp [h1, h2, h3, h4, List.count_cons]
  · by_cases h1 : p = a
    · subst h1
      by_cases h2 : q = b
      · subst h2; simp [hab, Ne.symm hab, List.count_cons]
      · simp [hab, h2, List.count_cons]
    · by_cases h2 : q = a
      · subst h2
        by_cases h4 : p = b
        · subst h4; simp [hab, List.count_cons]
        · simp [h1, h4, List.count_cons]
      · simp [h1, h2, List.count_cons]

theorem received_interactParticles_le {isHalo : P → Bool} (newton3 : Bool) {t : P × P} {a b : P} (hab : a ≠ b) :
    timesReceived (interactParticles isHalo newton3 t.1 t.2) a b ≤ if isPair id a b t then 1 else 0 := by
  by_cases hh : isHalo a = false
  · rw [received_interactParticles newton3 hab hh]
  · cases newton3
    · rw [timesReceived, List.count_eq_zero.2]
      · exact Nat.zero_le _
      · intro hc
        simp only [contributions, interactParticles, List.mem_flatMap] at hc
        obtain ⟨c, hc, hm⟩ := hc
        simp only [Bool.false_eq_true, if_false, List.mem_append] at hc
        rcases hc with hc | hc <;> split at hc <;> simp at hc <;> subst hc <;> simp at hm <;> obtain ⟨rfl, rfl⟩ := hm <;>
          simp_all
    · have : timesReceived (interactParticles isHalo true t.1 t.2) a b =
          timesReceived (interactParticles (fun _ => false) true t.1 t.2) a b := by simp [interactParticles]
      rw [this, received_interactParticles true hab rfl]

theorem received_interactCross (newton3 bidi : Bool) {t : P × P} {a b : P} (hab : a ≠ b) :
    timesReceived (interactCross newton3 bidi t.1 t.2) a b =
      if (t.1 = a ∧ t.2 = b) ∨ ((newton3 || bidi) = true ∧ t.1 = b ∧ t.2 = a) then 1 else 0 := by
  obtain ⟨p, q⟩ := t
  simp only [interactCross]
  unfold timesReceived contributions
  by_cases h1 : p = a
  · subst h1
    by_cases h2 : q = b
    · subst h2; cases newton3 <;> cases bidi <;> simp [hab, Ne.symm hab, List.count_cons]
    · cases newton3 <;> cases bidi <;> simp [hab, h2, List.count_cons]
  · by_cases h2 : q = a
    · subst h2
      by_cases h4 : p = b
      · subst h4; cases newton3 <;> cases bidi <;> simp [hab, List.count_cons]
      · cases newton3 <;> cases bidi <;> simp [h1, h4, List.count_cons]
    · cases newton3 <;> cases bidi <;> simp [h1, h2, List.count_cons]

theorem isPair_id {t : P × P} {a b : P} : isPair id a b t = decide ((t.1 = a ∧ t.2 = b) ∨ (t.1 = b ∧ t.2 = a)) := by
  simp [isPair]

end

section
variable {P : Type} [DecidableEq P] {f : CellFunctorCfg P} {pos : P → V3 Rat} {a b : P}

/-- The views are sorted. -/
def CellFunctorCfg.Sorts (f : CellFunctorCfg P) (pos : P → V3 Rat) : Prop :=
  ∀ dir l, IsSortedView pos dir l (f.sorted dir l)

omit [DecidableEq P] in
theorem cellPairs_unsorted (l : List P) :
    pairLoop (fun _ _ => false) l = cellPairs l.length 0 ⟨0, 0, 0⟩ l (l.map fun p => ((0 : Rat), p)) := by
  unfold cellPairs; rw [if_neg (by omega)]

theorem cell_zero (hs : f.Sorts pos) {c : PCell P} (h : a ∉ c.particles ∨ b ∉ c.particles) :
    timesReceived (f.cell c) a b = 0 := by
  apply timesReceived_zero
  intro call hc
  have key : call.p ∈ c.particles ∧ call.q ∈ c.particles := by
    unfold CellFunctorCfg.cell processCell soaSingle at hc
    rw [processCellAoS_eq] at hc
    split at hc
    · split at hc
      · simp at hc
      · split at hc
        · simp at hc
        · obtain ⟨t, ht, hc⟩ := List.mem_flatMap.1 hc
          have := mem_pairLoop ht
          unfold interactCross at hc
          split at hc <;> simp at hc
          · subst hc; exact this
          · rcases hc with hc | hc <;> subst hc
            · exact this
            · exact ⟨this.2, this.1⟩
    · split at hc
      · simp at hc
      · split at hc
        · simp at hc
        · obtain ⟨t, ht, hc⟩ := List.mem_flatMap.1 hc
          have := mem_cellPairs (hs _ _) ht
          unfold interactParticles at hc
          split at hc
          · simp at hc; subst hc; exact this
          · rw [List.mem_append] at hc
            rcases hc with hc | hc <;> split at hc <;> simp at hc <;> subst hc
            · exact this
            · exact ⟨this.2, this.1⟩
  constructor <;> rintro ⟨h1, h2⟩ <;> rw [h1, h2] at key <;> rcases h with h | h
  · exact h key.1
  · exact h key.2
  · exact h key.2
  · exact h key.1

omit [DecidableEq P] in
theorem ne_nil_of_mem {p : P} {l : List P} (h : p ∈ l) : l.isEmpty = false := by
  cases l with
  | nil => simp at h
  | cons => rfl

theorem pairLoop_one {l : List P} (hab : a ≠ b) (hnd : l.Nodup) (ha : a ∈ l) (hb : b ∈ l) :
    (pairLoop (fun _ _ => false) l).countP (isPair id a b) = 1 :=
  pairLoop_eq_one (get := id) (key := fun _ => 0) (u := a) (v := b) (pairwise_zero _) (by simpa using hnd) hab ha hb
    (fun _ _ _ _ _ h => h) rfl rfl

theorem cell_one (hs : f.Sorts pos) {c : PCell P} (hnd : c.particles.Nodup) (hab : a ≠ b) (ha : a ∈ c.particles)
    (hb : b ∈ c.particles) (hown : c.hasOwned = true) (hh : f.isHalo a = false) (hn : Near pos f.cutoff a b) :
    timesReceived (f.cell c) a b = 1 := by
  unfold CellFunctorCfg.cell processCell
  rw [ne_nil_of_mem ha, hown]
  simp only [Bool.false_eq_true, if_false, Bool.not_true]
  split
  · unfold soaSingle
    rw [timesReceived_flatMap_indicator (q := isPair id a b), pairLoop_one hab hnd ha hb]
    intro t _
    rw [received_interactCross _ _ hab, isPair_id]
    simp
  · rw [processCellAoS_eq, timesReceived_flatMap_indicator (q := isPair id a b)]
    · exact cellPairs_eq_one hab hnd (hs _ _) ha hb (.inr hn)
    · intro t _
      exact received_interactParticles _ hab hh

theorem cell_le_one (hs : f.Sorts pos) {c : PCell P} (hnd : c.particles.Nodup) (hab : a ≠ b) :
    timesReceived (f.cell c) a b ≤ 1 := by
  unfold CellFunctorCfg.cell processCell
  have h0 : timesReceived ([] : List (PairCall P)) a b ≤ 1 := by simp [timesReceived, contributions]
  split
  · split
    · exact h0
    · split
      · exact h0
      · unfold soaSingle
        rw [timesReceived_flatMap_indicator (q := isPair id a b)]
        · exact pairLoop_le_one hab (by simpa using hnd)
        intro t _
        rw [received_interactCross _ _ hab, isPair_id]
        simp
  · split
    · exact h0
    · split
      · exact h0
      · rw [processCellAoS_eq]
        refine le_trans (timesReceived_flatMap_le (q := isPair id a b) ?_) (cellPairs_le_one hab hnd (hs _ _))
        intro t _
        exact received_interactParticles_le _ hab

theorem soaPair_eq (n3 bidi : Bool) (l₁ l₂ : List P) (h : n3 = true ∨ bidi = false) :
    soaPair n3 l₁ l₂ = (crossLoop (fun _ _ => false) l₁ l₂).flatMap fun t => interactCross n3 bidi t.1 t.2 := by
  unfold soaPair
  rw [← List.flatMap_singleton' (List.map _ _), List.flatMap_map]
  congr 1
  funext t
  unfold interactCross
  rcases h with rfl | rfl
  · simp
  · cases n3 <;> simp

theorem crossLoop_one {l₁ l₂ : List P} (hnd1 : l₁.Nodup) (hnd2 : l₂.Nodup) (ha : a ∈ l₁) (hb : b ∈ l₂) :
    (crossLoop (fun _ _ => false) l₁ l₂).countP (fun t => t.1 = a ∧ t.2 = b) = 1 :=
  crossLoop_eq_one (get := id) (key := fun _ => 0) (u := a) (v := b) (pairwise_zero _) (by simpa using hnd1)
      (by simpa using hnd2) ha hb (fun _ _ _ h => h) rfl

/-- Contributions of a list of pairs of particles of two disjoint cells. -/
theorem cross_received {l : List (P × P)} (n3 bidi : Bool) (hab : a ≠ b) (hdis : ∀ t ∈ l, ¬ (t.1 = b ∧ t.2 = a)) :
    timesReceived (l.flatMap fun t => interactCross n3 bidi t.1 t.2) a b = l.countP (fun t => t.1 = a ∧ t.2 = b) ∧
    timesReceived (l.flatMap fun t => interactCross n3 bidi t.1 t.2) b a =
      if n3 || bidi then l.countP (fun t => t.1 = a ∧ t.2 = b) else 0 := by
  constructor
  · apply timesReceived_flatMap_indicator
    intro t ht
    rw [received_interactCross _ _ hab]
    have := hdis t ht
    simp [this]
  · cases h : (n3 || bidi)
    · simp only [Bool.false_eq_true, if_false]
      have : l.countP (fun _ => false) = 0 := by simp
      rw [← this]
      apply timesReceived_flatMap_indicator
      intro t ht
      rw [received_interactCross _ _ hab.symm]
      have := hdis t ht
      simp [this, h]
    · simp only [if_true]
      apply timesReceived_flatMap_indicator
      intro t ht
      rw [received_interactCross _ _ hab.symm]
      have := hdis t ht
      simp [this, h]

/-- The pairs of particles that a pair of cells (not skipped) is processed with. -/
def CellFunctorCfg.crossed (f : CellFunctorCfg P) (dir : V3 Rat) (c1 c2 : PCell P) : List (P × P) :=
  if f.soa then crossLoop (fun _ _ => false) c1.particles c2.particles
  else crossPairs f.threshold f.cutoff dir c1.particles c2.particles (f.sorted dir c1.particles) (f.sorted dir c2.particles)

omit [DecidableEq P] in
theorem mem_crossed (hs : f.Sorts pos) {dir : V3 Rat} {c1 c2 : PCell P} {t : P × P} (ht : t ∈ f.crossed dir c1 c2) :
    t.1 ∈ c1.particles ∧ t.2 ∈ c2.particles := by
  unfold CellFunctorCfg.crossed at ht
  split at ht
  · exact mem_crossLoop ht
  · exact mem_crossPairs (hs _ _) (hs _ _) ht

/-- Contributions of a pair of cells that is not skipped. -/
theorem soa_pair_received {c1 c2 : PCell P} (hdis : ∀ p ∈ c1.particles, p ∉ c2.particles) (hnd1 : c1.particles.Nodup)
    (hnd2 : c2.particles.Nodup) (ha : a ∈ c1.particles) (hb : b ∈ c2.particles) (n3 bidi : Bool) :
    let calls := soaPair n3 c1.particles c2.particles ++
      (if n3 = false ∧ bidi = true then soaPair false c2.particles c1.particles else [])
    timesReceived calls a b = 1 ∧ timesReceived calls b a = if n3 || bidi then 1 else 0 := by
  intro calls
  have hab : a ≠ b := fun e => hdis a ha (e ▸ hb)
  have d1 : ∀ t ∈ crossLoop (fun _ _ => false) c1.particles c2.particles, ¬ (t.1 = b ∧ t.2 = a) := by
    rintro t ht ⟨h1, h2⟩
    have := mem_crossLoop ht
    exact hdis a ha (h2 ▸ this.2)
  have d2 : ∀ t ∈ crossLoop (fun _ _ => false) c2.particles c1.particles, ¬ (t.1 = a ∧ t.2 = b) := by
    rintro t ht ⟨h1, h2⟩
    have := mem_crossLoop ht
    exact hdis b (h2 ▸ this.2) hb
  have c1' := crossLoop_one hnd1 hnd2 ha hb
  have c2' := crossLoop_one hnd2 hnd1 hb ha
  have app : ∀ (l l' : List (PairCall P)) (x y : P), timesReceived (l ++ l') x y = timesReceived l x y + timesReceived l' x y := by
    intro l l' x y; simp [timesReceived, contributions_append]
  have nil : ∀ x y : P, timesReceived ([] : List (PairCall P)) x y = 0 := by intro x y; simp [timesReceived, contributions]
  cases n3
  · have e1 := cross_received false false hab d1
    have e2 := cross_received false false hab.symm d2
    rw [← soaPair_eq false false _ _ (.inr rfl)] at e1 e2
    cases bidi
    · simp only [calls, app, e1.1, e1.2, c1', nil, Bool.false_eq_true, and_false, if_false, Bool.or_self, Nat.add_zero, and_self]
    · simp only [calls, app, e1.1, e1.2, e2.1, e2.2, c1', c2', and_self, if_true, Bool.false_eq_true, if_false, Bool.or_self,
        Bool.or_true]
  · have e1 := cross_received true bidi hab d1
    rw [← soaPair_eq true bidi _ _ (.inl rfl)] at e1
    simp only [calls, app, e1.1, e1.2, c1', nil, Bool.true_eq_false, false_and, if_false, Bool.true_or, if_true, Nat.add_zero,
      and_self]

theorem cellPair_calls (hs : f.Sorts pos) {dir : V3 Rat} {c1 c2 : PCell P}
    (hdis : ∀ p ∈ c1.particles, p ∉ c2.particles) (hnd1 : c1.particles.Nodup) (hnd2 : c2.particles.Nodup)
    (ha : a ∈ c1.particles) (hb : b ∈ c2.particles) :
    (timesReceived (f.cellPair dir c1 c2) a b ≤ 1) ∧
    (timesReceived (f.cellPair dir c1 c2) b a ≤ if f.newton3 || f.bidirectional then 1 else 0) ∧
    (Near pos f.cutoff a b → NotBehind pos dir f.cutoff c1.particles c2.particles →
      (c1.hasOwned = true → timesReceived (f.cellPair dir c1 c2) a b = 1) ∧
      ((f.newton3 || f.bidirectional) = true → c2.hasOwned = true → timesReceived (f.cellPair dir c1 c2) b a = 1)) := by
  have hab : a ≠ b := fun e => hdis a ha (e ▸ hb)
  have nil : ∀ x y : P, timesReceived ([] : List (PairCall P)) x y = 0 := by intro x y; simp [timesReceived, contributions]
  have hd : ∀ t ∈ crossPairs f.threshold f.cutoff dir c1.particles c2.particles (f.sorted dir c1.particles)
      (f.sorted dir c2.particles), ¬ (t.1 = b ∧ t.2 = a) := by
    rintro t ht ⟨h1, h2⟩
    have := mem_crossPairs (hs _ _) (hs _ _) ht
    exact hdis a ha (h2 ▸ this.2)
  have hle := crossPairs_le_one (a := a) (b := b) (threshold := f.threshold) (cutoff := f.cutoff) hnd1 hnd2 (hs dir _) (hs dir _)
  have e := cross_received f.newton3 f.bidirectional hab hd
  have s := soa_pair_received hdis hnd1 hnd2 ha hb f.newton3 f.bidirectional
  simp only at s
  unfold CellFunctorCfg.cellPair processCellPair
  rw [ne_nil_of_mem ha, ne_nil_of_mem hb, processCellPairAoS_eq]
  simp only [Bool.false_eq_true, or_self, if_false]
  by_cases hg : (c1.hasOwned = false ∧ f.newton3 = false ∧ f.bidirectional = false) ∨ (c1.hasOwned = false ∧ c2.hasOwned = false)
  · simp only [if_pos hg, ite_self, nil]
    refine ⟨by omega, by omega, fun _ _ => ⟨fun h => ?_, fun h1 h2 => ?_⟩⟩
    · simp [h] at hg
    · simp only [h2, Bool.true_eq_false, and_false, or_false] at hg
      simp [hg.2.1, hg.2.2] at h1
  · simp only [if_neg hg]
    by_cases hsoa : f.soa = true
    · simp only [if_pos hsoa, s.1, s.2]
      refine ⟨le_refl _, le_refl _, fun _ _ => ⟨fun _ => trivial, fun h _ => by rw [h]; rfl⟩⟩
    · simp only [if_neg hsoa, e.1, e.2]
      refine ⟨hle, by split <;> omega, fun hn hnb => ?_⟩
      have := crossPairs_eq_one (threshold := f.threshold) hnd1 hnd2 (hs dir _) (hs dir _) ha hb (.inr (.inr ⟨hn, hnb⟩))
      exact ⟨fun _ => this, fun h _ => by rw [h]; exact this⟩

theorem cellPair_zero (hs : f.Sorts pos) {dir : V3 Rat} {c1 c2 : PCell P}
    (h1 : ¬ (a ∈ c1.particles ∧ b ∈ c2.particles)) (h2 : ¬ (b ∈ c1.particles ∧ a ∈ c2.particles)) :
    timesReceived (f.cellPair dir c1 c2) a b = 0 := by
  apply timesReceived_zero
  intro call hc
  have key : (call.p ∈ c1.particles ∧ call.q ∈ c2.particles) ∨ (call.q ∈ c1.particles ∧ call.p ∈ c2.particles) := by
    unfold CellFunctorCfg.cellPair processCellPair at hc
    rw [processCellPairAoS_eq] at hc
    split at hc
    · split at hc
      · simp at hc
      · split at hc
        · simp at hc
        · rw [List.mem_append] at hc
          rcases hc with hc | hc
          · obtain ⟨t, ht, rfl⟩ := List.mem_map.1 hc
            exact .inl (mem_crossLoop ht)
          · split at hc
            · obtain ⟨t, ht, rfl⟩ := List.mem_map.1 hc
              exact .inr (mem_crossLoop ht).symm
            · simp at hc
    · split at hc
      · simp at hc
      · split at hc
        · simp at hc
        · obtain ⟨t, ht, hc⟩ := List.mem_flatMap.1 hc
          have := mem_crossPairs (hs _ _) (hs _ _) ht
          unfold interactCross at hc
          split at hc
          · simp at hc; subst hc; exact .inl this
          · rw [List.mem_cons] at hc
            rcases hc with hc | hc
            · subst hc; exact .inl this
            · split at hc <;> simp at hc
              subst hc; exact .inr this
  constructor <;> rintro ⟨e1, e2⟩ <;> rw [e1, e2] at key <;> rcases key with k | k
  · exact h1 k
  · exact h2 k
  · exact h2 k
  · exact h1 k

theorem cellPair_zero_directed (hs : f.Sorts pos) {dir : V3 Rat} {c1 c2 : PCell P}
    (hdis : ∀ p ∈ c1.particles, p ∉ c2.particles) (hnd1 : c1.particles.Nodup) (hnd2 : c2.particles.Nodup)
    (hnb : (f.newton3 || f.bidirectional) = false)
    (h1 : ¬ (a ∈ c1.particles ∧ b ∈ c2.particles)) :
    timesReceived (f.cellPair dir c1 c2) a b = 0 := by
  by_cases h2 : b ∈ c1.particles ∧ a ∈ c2.particles
  · have := (cellPair_calls hs (dir := dir) hdis hnd1 hnd2 h2.1 h2.2).2.1
    rw [hnb] at this
    simpa using this
  · exact cellPair_zero hs h1 h2

end

/-! ### Whole traversals -/

section
variable {P : Type} [DecidableEq P] {f : CellFunctorCfg P} {pos : P → V3 Rat} {a b : P} {cells : List (PCell P)}

/-- What is needed of the cells: no particle twice, and `no p` is the only cell that can contain `p`. -/
structure CellsOk (cells : List (PCell P)) (no : P → Int) : Prop where
  nodup : ∀ i, (cellAt cells i).particles.Nodup
  mem : ∀ i p, 0 ≤ i → p ∈ (cellAt cells i).particles → no p = i

/-- The call in which `a` may receive the contribution of `b`. -/
def hits (both : Bool) (ca cb : Int) : CellOp → Bool
  | .self i => ca = cb ∧ i = ca
  | .pair i j _ => (i = ca ∧ j = cb) ∨ (both = true ∧ i = cb ∧ j = ca)

/-- What is needed of a call to the cell functor. -/
def ValidOp (op : CellOp) : Prop := (∀ i ∈ touched op, 0 ≤ i) ∧ (touched op).Nodup

theorem op_received_le {no : P → Int} (hc : CellsOk cells no) (hs : f.Sorts pos) (hab : a ≠ b) {op : CellOp} (hop : ValidOp op) :
    timesReceived (f.op cells op) a b ≤ if hits (f.newton3 || f.bidirectional) (no a) (no b) op then 1 else 0 := by
  cases op with
  | self i =>
    have hi : 0 ≤ i := hop.1 i (by simp [touched])
    by_cases h : a ∈ (cellAt cells i).particles ∧ b ∈ (cellAt cells i).particles
    · have e1 := hc.mem i a hi h.1
      have e2 := hc.mem i b hi h.2
      have : hits (f.newton3 || f.bidirectional) (no a) (no b) (.self i) = true := by simp [hits, e1, e2]
      rw [this, if_pos rfl]
      exact cell_le_one hs (hc.nodup i) hab
    · have : timesReceived (f.op cells (.self i)) a b = 0 := cell_zero hs (by tauto)
      omega
  | pair i j dir =>
    have hi : 0 ≤ i := hop.1 i (by simp [touched])
    have hj : 0 ≤ j := hop.1 j (by simp [touched])
    have hij : i ≠ j := by have := hop.2; simp [touched] at this; exact this
    have hdis : ∀ p ∈ (cellAt cells i).particles, p ∉ (cellAt cells j).particles := fun p h1 h2 =>
      hij ((hc.mem i p hi h1).symm.trans (hc.mem j p hj h2))
    by_cases h : a ∈ (cellAt cells i).particles ∧ b ∈ (cellAt cells j).particles
    · have e1 := hc.mem i a hi h.1
      have e2 := hc.mem j b hj h.2
      have : hits (f.newton3 || f.bidirectional) (no a) (no b) (.pair i j dir) = true := by simp [hits, e1, e2]
      rw [this, if_pos rfl]
      exact (cellPair_calls hs hdis (hc.nodup i) (hc.nodup j) h.1 h.2).1
    · by_cases h' : b ∈ (cellAt cells i).particles ∧ a ∈ (cellAt cells j).particles
      · have e1 := hc.mem i b hi h'.1
        have e2 := hc.mem j a hj h'.2
        have k := (cellPair_calls hs (dir := dir) hdis (hc.nodup i) (hc.nodup j) h'.1 h'.2).2.1
        cases hb : (f.newton3 || f.bidirectional)
        · rw [hb] at k
          simp only [Bool.false_eq_true, if_false] at k
          simp only [CellFunctorCfg.op]; omega
        · rw [hb] at k
          have : hits true (no a) (no b) (.pair i j dir) = true := by simp [hits, e1, e2]
          rw [this]
          exact k
      · have : timesReceived (f.op cells (.pair i j dir)) a b = 0 := cellPair_zero hs h h'
        omega

theorem op_received {no : P → Int} (hc : CellsOk cells no) (hs : f.Sorts pos) (hab : a ≠ b)
    (ha : a ∈ (cellAt cells (no a)).particles) (hb : b ∈ (cellAt cells (no b)).particles)
    (hown : (cellAt cells (no a)).hasOwned = true) (hh : f.isHalo a = false) (hn : Near pos f.cutoff a b)
    {op : CellOp} (hop : ValidOp op)
    (hdir : ∀ i j dir, op = .pair i j dir → NotBehind pos dir f.cutoff (cellAt cells i).particles (cellAt cells j).particles) :
    timesReceived (f.op cells op) a b = if hits (f.newton3 || f.bidirectional) (no a) (no b) op then 1 else 0 := by
  by_cases hit : hits (f.newton3 || f.bidirectional) (no a) (no b) op = true
  · rw [if_pos hit]
    cases op with
    | self i =>
      simp only [hits, decide_eq_true_eq] at hit
      obtain ⟨e1, e2⟩ := hit
      subst e2
      exact cell_one hs (hc.nodup _) hab ha (e1 ▸ hb) hown hh hn
    | pair i j dir =>
      have hi : 0 ≤ i := hop.1 i (by simp [touched])
      have hj : 0 ≤ j := hop.1 j (by simp [touched])
      have hij : i ≠ j := by have := hop.2; simp [touched] at this; exact this
      have hdis : ∀ p ∈ (cellAt cells i).particles, p ∉ (cellAt cells j).particles := fun p h1 h2 =>
        hij ((hc.mem i p hi h1).symm.trans (hc.mem j p hj h2))
      have hnb := hdir i j dir rfl
      simp only [hits, decide_eq_true_eq] at hit
      rcases hit with ⟨e1, e2⟩ | ⟨e0, e1, e2⟩
      · subst e1 e2
        exact ((cellPair_calls hs hdis (hc.nodup _) (hc.nodup _) ha hb).2.2 hn hnb).1 hown
      · subst e1 e2
        exact ((cellPair_calls hs hdis (hc.nodup _) (hc.nodup _) hb ha).2.2 (near_symm hn) hnb).2 e0 hown
  · rw [if_neg hit]
    have := op_received_le (f := f) (pos := pos) hc hs hab hop
    rw [if_neg hit] at this
    omega

theorem hits_self {both : Bool} {ops : List CellOp} (hv : ∀ op ∈ ops, ValidOp op) (c : Int) :
    ops.countP (hits both c c) = timesSelf ops c := by
  unfold timesSelf
  apply List.countP_congr
  intro op hop
  have := (hv op hop).2
  cases op with
  | self i => simp [hits]
  | pair i j dir =>
    simp only [touched, List.nodup_cons, List.mem_singleton] at this
    simp only [hits, decide_eq_true_eq, Bool.false_eq_true, iff_false]
    rintro (⟨h1, h2⟩ | ⟨-, h1, h2⟩) <;> exact this.1 (h1.trans h2.symm)

theorem hits_pair {ops : List CellOp} {c d : Int} (h : c ≠ d) : ops.countP (hits true c d) = timesPair ops c d := by
  unfold timesPair
  apply List.countP_congr
  intro op _
  cases op with
  | self i => simp [hits, h]
  | pair i j dir => simp [hits]

theorem hits_ordered {ops : List CellOp} {c d : Int} (h : c ≠ d) : ops.countP (hits false c d) = timesOrdered ops c d := by
  unfold timesOrdered
  apply List.countP_congr
  intro op _
  cases op with
  | self i => simp [hits, h]
  | pair i j dir => simp [hits]

end

end Verif
