import Verif.Lemmas.PTNewton
import Mathlib.Data.List.Sort
import Mathlib.Data.List.Nodup

/-! What `reset` of the predictive strategy does to the queue. -/
namespace Verif.PT

variable {C : Type} [DecidableEq C]

theorem watch_mem (s : State C) (c d : C) : d ∈ (s.watch c).tooLong ↔ d ∈ s.tooLong ∨ d = c := by
  unfold State.watch
  split
  · constructor
    · exact Or.inl
    · rintro (h | rfl) <;> assumption
  · simp

theorem watch_nodup (s : State C) (c : C) (h : s.tooLong.Nodup) : (s.watch c).tooLong.Nodup := by
  unfold State.watch
  split
  · exact h
  next hc =>
    simp only
    rw [List.nodup_append]
    refine ⟨h, by simp, ?_⟩
    intro a ha b hb
    simp at hb
    subst hb
    exact fun e => hc (e ▸ ha)

theorem watch_params (s : State C) (c : C) : (s.watch c).params = s.params := by
  unfold State.watch
  split <;> rfl

theorem collect_spec (c : Cfg) (ph : Nat) (ev : EvidenceMap C) (queue : List C) (s : State C) (hn : s.tooLong.Nodup) :
    (∀ d, d ∈ (collectUntested c ph ev queue s).tooLong ↔ d ∈ s.tooLong ∨ (d ∈ queue ∧ Untested c ph ev d)) ∧
    (collectUntested c ph ev queue s).tooLong.Nodup ∧ (collectUntested c ph ev queue s).params = s.params := by
  unfold collectUntested
  induction queue generalizing s with
  | nil => simp [hn]
  | cons q queue ih =>
    rw [List.foldl_cons]
    cases hl : (getEvidence ev q).getLast? with
    | none =>
      obtain ⟨h1, h2, h3⟩ := ih s hn
      refine ⟨fun d => ?_, h2, h3⟩
      rw [h1]
      constructor
      · rintro (h | ⟨h, h'⟩)
        · exact Or.inl h
        · exact Or.inr ⟨List.mem_cons_of_mem _ h, h'⟩
      · rintro (h | ⟨h, h'⟩)
        · exact Or.inl h
        · rcases List.mem_cons.1 h with rfl | h
          · obtain ⟨e, he, -⟩ := h'
            rw [hl] at he
            cases he
          · exact Or.inr ⟨h, h'⟩
    | some e =>
      dsimp only
      by_cases hu : subSize ph e.tuningPhase ≥ c.maxTuningPhasesWithoutTest
      · rw [if_pos hu]
        obtain ⟨h1, h2, h3⟩ := ih (s.watch q) (watch_nodup s q hn)
        refine ⟨fun d => ?_, h2, by rw [h3, watch_params]⟩
        rw [h1, watch_mem]
        constructor
        · rintro ((h | rfl) | ⟨h, h'⟩)
          · exact Or.inl h
          · exact Or.inr ⟨by simp, e, hl, hu⟩
          · exact Or.inr ⟨List.mem_cons_of_mem _ h, h'⟩
        · rintro (h | ⟨h, h'⟩)
          · exact Or.inl (Or.inl h)
          · rcases List.mem_cons.1 h with rfl | h
            · exact Or.inl (Or.inr rfl)
            · exact Or.inr ⟨h, h'⟩
      · rw [if_neg hu]
        obtain ⟨h1, h2, h3⟩ := ih s hn
        refine ⟨fun d => ?_, h2, h3⟩
        rw [h1]
        constructor
        · rintro (h | ⟨h, h'⟩)
          · exact Or.inl h
          · exact Or.inr ⟨List.mem_cons_of_mem _ h, h'⟩
        · rintro (h | ⟨h, h'⟩)
          · exact Or.inl h
          · rcases List.mem_cons.1 h with rfl | h
            · obtain ⟨e', he, hle⟩ := h'
              rw [hl] at he
              cases he
              exact absurd hle hu
            · exact Or.inr ⟨h, h'⟩

theorem predictionOf_congr (c : Cfg) (iteration ph : Nat) (ev : EvidenceMap C) (p p' : C → List Rat) (conf : C) (h : p conf = p' conf) :
    predictionOf c iteration ph ev p conf = predictionOf c iteration ph ev p' conf := by
  unfold predictionOf
  rw [h]

theorem calculate_spec (c : Cfg) (iteration ph : Nat) (ev : EvidenceMap C) (queue : List C) (s : State C) (hq : queue.Nodup)
    (hn : s.tooLong.Nodup) (preds : List (C × Int)) (s' : State C)
    (h : calculatePredictions c iteration ph ev queue s = .ok (preds, s')) :
    (∀ d v, (d, v) ∈ preds ↔ d ∈ queue ∧ predictionOf c iteration ph ev s.params d = some v) ∧
    (preds.map Prod.fst).Sublist queue ∧
    (∀ d, d ∈ s'.tooLong ↔ d ∈ s.tooLong ∨ (d ∈ queue ∧ needsMore c iteration ph ev s.params d)) ∧ s'.tooLong.Nodup ∧
    (∀ d ∈ queue, getEvidence ev d ≠ [] → ∃ r, predict c iteration ph (s.params d) (getEvidence ev d) = .ok r) := by
  induction queue generalizing s preds s' with
  | nil =>
    simp only [calculatePredictions, Outcome.ok.injEq, Prod.mk.injEq] at h
    obtain ⟨rfl, rfl⟩ := h
    simp [hn]
  | cons q queue ih =>
    have hq' := List.nodup_cons.1 hq
    unfold calculatePredictions at h
    by_cases he : getEvidence ev q = []
    · rw [if_pos (by rw [he]; rfl)] at h
      obtain ⟨h1, h2, h3, h4, h5⟩ := ih s hq'.2 hn preds s' h
      have hnone : predictionOf c iteration ph ev s.params q = none := by unfold predictionOf; rw [if_pos he]
      refine ⟨fun d v => ?_, h2.cons _, fun d => ?_, h4, ?_⟩
      · rw [h1]
        constructor
        · exact fun h => ⟨List.mem_cons_of_mem _ h.1, h.2⟩
        · rintro ⟨ha, hb⟩
          rcases List.mem_cons.1 ha with rfl | ha
          · rw [hnone] at hb; cases hb
          · exact ⟨ha, hb⟩
      · rw [h3]
        constructor
        · rintro (h | h)
          · exact Or.inl h
          · exact Or.inr ⟨List.mem_cons_of_mem _ h.1, h.2⟩
        · rintro (h | ⟨ha, hb⟩)
          · exact Or.inl h
          · rcases List.mem_cons.1 ha with rfl | ha
            · exact absurd he hb.1
            · exact Or.inr ⟨ha, hb⟩
      · intro d hd hne
        rcases List.mem_cons.1 hd with rfl | hd
        · exact absurd he hne
        · exact h5 d hd hne
    · rw [if_neg (by simpa using he)] at h
      cases hp : predict c iteration ph (s.params q) (getEvidence ev q) with
      | ok r =>
        rw [hp] at h
        simp only [Outcome.bind] at h
        set s1 : State C := { s with params := Function.update s.params q r.params } with hs1
        set s2 : State C := if r.tooLong = true then s1.watch q else s1 with hs2
        have hparams : ∀ d, d ≠ q → s2.params d = s.params d := by
          intro d hd
          have : s2.params = s1.params := by
            rw [hs2]
            split
            · exact watch_params _ _
            · rfl
          rw [this, hs1]
          exact Function.update_of_ne hd _ _
        have hmem : ∀ d, d ∈ s2.tooLong ↔ d ∈ s.tooLong ∨ (d = q ∧ r.tooLong = true) := by
          intro d
          rw [hs2]
          split
          next ht => rw [watch_mem]; simp [hs1, ht]
          next ht => simp [hs1, ht]
        have hnod : s2.tooLong.Nodup := by
          rw [hs2]
          split
          · exact watch_nodup _ _ hn
          · exact hn
        cases hr : calculatePredictions c iteration ph ev queue s2 with
        | ok rest =>
          rw [hr] at h
          simp only [Outcome.ok.injEq, Prod.mk.injEq] at h
          obtain ⟨rfl, rfl⟩ := h
          obtain ⟨h1, h2, h3, h4, h5⟩ := ih s2 hq'.2 hnod rest.1 rest.2 hr
          have hpo : ∀ d ∈ queue, predictionOf c iteration ph ev s2.params d = predictionOf c iteration ph ev s.params d := fun d hd =>
            predictionOf_congr _ _ _ _ _ _ _ (hparams d (fun e => hq'.1 (e ▸ hd)))
          have hnm : ∀ d ∈ queue, needsMore c iteration ph ev s2.params d ↔ needsMore c iteration ph ev s.params d := fun d hd => by
            unfold needsMore
            rw [hparams d (fun e => hq'.1 (e ▸ hd))]
          have hmine : predictionOf c iteration ph ev s.params q = if r.value = errorValue then none else some (max 0 r.value) := by
            unfold predictionOf
            rw [if_neg he, hp]
          have hminem : needsMore c iteration ph ev s.params q ↔ r.tooLong = true := by
            unfold needsMore
            rw [hp]
            constructor
            · rintro ⟨-, r', h', ht⟩
              cases h'
              exact ht
            · exact fun ht => ⟨he, r, rfl, ht⟩
          refine ⟨fun d v => ?_, ?_, fun d => ?_, h4, ?_⟩
          · by_cases hv : r.value = errorValue
            · rw [if_neg (by simpa using hv)]
              rw [h1]
              constructor
              · exact fun h => ⟨List.mem_cons_of_mem _ h.1, by rw [← hpo d h.1]; exact h.2⟩
              · rintro ⟨ha, hb⟩
                rcases List.mem_cons.1 ha with rfl | ha
                · rw [hmine, if_pos hv] at hb; cases hb
                · exact ⟨ha, by rw [hpo d ha]; exact hb⟩
            · rw [if_pos hv, List.mem_cons, h1]
              constructor
              · rintro (h | h)
                · cases h
                  exact ⟨by simp, by rw [hmine, if_neg hv]⟩
                · exact ⟨List.mem_cons_of_mem _ h.1, by rw [← hpo d h.1]; exact h.2⟩
              · rintro ⟨ha, hb⟩
                rcases List.mem_cons.1 ha with rfl | ha
                · rw [hmine, if_neg hv] at hb
                  cases hb
                  exact Or.inl rfl
                · exact Or.inr ⟨ha, by rw [hpo d ha]; exact hb⟩
          · split
            · exact h2.cons_cons _
            · exact h2.cons _
          · rw [h3, hmem]
            constructor
            · rintro ((h | ⟨rfl, ht⟩) | ⟨ha, hb⟩)
              · exact Or.inl h
              · exact Or.inr ⟨by simp, hminem.2 ht⟩
              · exact Or.inr ⟨List.mem_cons_of_mem _ ha, (hnm d ha).1 hb⟩
            · rintro (h | ⟨ha, hb⟩)
              · exact Or.inl (Or.inl h)
              · rcases List.mem_cons.1 ha with rfl | ha
                · exact Or.inl (Or.inr ⟨rfl, hminem.1 hb⟩)
                · exact Or.inr ⟨ha, (hnm d ha).2 hb⟩
          · intro d hd hne
            rcases List.mem_cons.1 hd with rfl | hd
            · exact ⟨r, hp⟩
            · obtain ⟨r', hr'⟩ := h5 d hd hne
              rw [hparams d (fun e => hq'.1 (e ▸ hd))] at hr'
              exact ⟨r', hr'⟩
        | throws => rw [hr] at h; cases h
        | ub => rw [hr] at h; cases h
        | diverges => rw [hr] at h; cases h
      | throws => rw [hp] at h; cases h
      | ub => rw [hp] at h; cases h
      | diverges => rw [hp] at h; cases h

theorem find_value (preds : List (C × Int)) (hn : (preds.map Prod.fst).Nodup) (d : C) (v : Int) (h : (d, v) ∈ preds) :
    ((preds.find? fun p => decide (p.1 = d)).map Prod.snd).getD 0 = v := by
  induction preds with
  | nil => cases h
  | cons p preds ih =>
    rw [List.map_cons, List.nodup_cons] at hn
    rw [List.find?_cons]
    rcases List.mem_cons.1 h with rfl | h
    · simp
    · have : p.1 ≠ d := fun e => hn.1 (e ▸ List.mem_map.2 ⟨(d, v), h, rfl⟩)
      simp only [this, decide_false]
      exact ih hn.2 h

/-- The new queue after `reset`: `watched` first, then the promising configurations with falling predictions. -/
theorem reset_spec (c : Cfg) (hc : 1 ≤ c.relativeOptimumRange) (order setOrder : List C → List C) (ho : ∀ l, (order l).Perm l)
    (hso : ∀ l, (setOrder l).Perm l) (iteration ph : Nat) (queue : List C) (hq : queue.Nodup) (ev : EvidenceMap C) (s : State C)
    (hs : s.tooLong.Nodup) (queue' : List C) (s' : State C)
    (h : reset c order setOrder iteration ph queue ev s = .ok (queue', s')) :
    (∀ d, d ∈ s'.tooLong ↔ d ∈ s.tooLong ∨ (d ∈ queue ∧ (Untested c ph ev d ∨ needsMore c iteration ph ev s.params d))) ∧
    s'.tooLong.Nodup ∧ queue'.Nodup ∧
    (((∀ d ∈ queue, predictionOf c iteration ph ev s.params d = none) ∧ queue' = queue) ∨
     ∃ best, (∃ d ∈ queue, predictionOf c iteration ph ev s.params d = some best) ∧
      (∀ d ∈ queue, ∀ v, predictionOf c iteration ph ev s.params d = some v → best ≤ v) ∧
      ∃ watched promising, queue' = watched ++ promising ∧
        (∀ d, d ∈ promising ↔ d ∈ queue ∧ ∃ v, predictionOf c iteration ph ev s.params d = some v ∧ (v : ℚ) ≤ c.relativeOptimumRange * best) ∧
        (∀ d, d ∈ watched ↔ d ∈ s'.tooLong ∧ d ∉ promising) ∧
        promising.Pairwise (fun a b => ∀ va vb, predictionOf c iteration ph ev s.params a = some va →
          predictionOf c iteration ph ev s.params b = some vb → vb ≤ va)) := by
  obtain ⟨k1, k2, k3⟩ := collect_spec c ph ev queue s hs
  unfold reset at h
  dsimp only at h
  generalize hcol : collectUntested c ph ev queue s = sc at *
  cases hcal : calculatePredictions c iteration ph ev queue sc with
  | ok r =>
    obtain ⟨preds, sr⟩ := r
    rw [hcal] at h
    simp only [Outcome.bind] at h
    obtain ⟨p1, p2, p3, p4, p5⟩ := calculate_spec c iteration ph ev queue sc hq k2 preds sr hcal
    rw [k3] at p1 p3
    have hwatch : ∀ d, d ∈ sr.tooLong ↔ d ∈ s.tooLong ∨ (d ∈ queue ∧ (Untested c ph ev d ∨ needsMore c iteration ph ev s.params d)) := by
      intro d
      rw [p3, k1]
      tauto
    have hpn : (preds.map Prod.fst).Nodup := p2.nodup hq
    cases hm : (preds.map Prod.snd).min? with
    | none =>
      rw [hm] at h
      simp only [Outcome.ok.injEq, Prod.mk.injEq] at h
      obtain ⟨rfl, rfl⟩ := h
      refine ⟨hwatch, p4, hq, Or.inl ⟨fun d hd => ?_, rfl⟩⟩
      rw [List.min?_eq_none_iff, List.map_eq_nil_iff] at hm
      cases hv : predictionOf c iteration ph ev s.params d with
      | none => rfl
      | some v =>
        have := (p1 d v).2 ⟨hd, hv⟩
        rw [hm] at this
        cases this
    | some best =>
      rw [hm] at h
      simp only at h
      cases ht : toLong (c.relativeOptimumRange * best) with
      | ok acc =>
        rw [ht] at h
        simp only [Outcome.ok.injEq, Prod.mk.injEq] at h
        obtain ⟨rfl, rfl⟩ := h
        rw [List.min?_eq_some_iff] at hm
        obtain ⟨hbm, hbl⟩ := hm
        obtain ⟨⟨d0, b0⟩, hd0, rfl⟩ := List.mem_map.1 hbm
        simp only at *
        have hd0' := (p1 d0 b0).1 hd0
        set value := fun conf => ((preds.find? fun p => decide (p.1 = conf)).map Prod.snd).getD 0 with hvalue
        set cand := (preds.filter fun p => decide (p.2 ≤ acc)).map Prod.fst with hcand
        set worthy := (order cand).insertionSort fun a b => value a ≥ value b with hworthy
        have hwp : worthy.Perm cand := (List.perm_insertionSort _ _).trans (ho _)
        have hval : ∀ d v, predictionOf c iteration ph ev s.params d = some v → d ∈ queue → value d = v := fun d v hv hd =>
          find_value preds hpn d v ((p1 d v).2 ⟨hd, hv⟩)
        have hb0 : 0 ≤ b0 := by
          have := hd0'.2
          unfold predictionOf at this
          split at this
          · cases this
          · split at this
            · split at this
              · cases this
              · cases this
                exact le_max_left _ _
            · cases this
        have hacc : ∀ v : Int, v ≤ acc ↔ (v : ℚ) ≤ c.relativeOptimumRange * b0 := by
          have hx0 : (0 : ℚ) ≤ c.relativeOptimumRange * b0 := mul_nonneg (by linarith) (by exact_mod_cast hb0)
          have hfl : acc = ⌊c.relativeOptimumRange * b0⌋ := by
            unfold toLong at ht
            split at ht
            · cases ht
              generalize c.relativeOptimumRange * (b0 : ℚ) = x at hx0 ⊢
              rw [Int.tdiv_eq_ediv_of_nonneg (Rat.num_nonneg.2 hx0)]
              exact Rat.floor_def'.symm
            · cases ht
          intro v
          rw [hfl, Int.le_floor]
        have hcm : ∀ d, d ∈ cand ↔ d ∈ queue ∧ ∃ v, predictionOf c iteration ph ev s.params d = some v ∧ (v : ℚ) ≤ c.relativeOptimumRange * b0 := by
          intro d
          rw [hcand, List.mem_map]
          constructor
          · rintro ⟨⟨d', v⟩, hmem, rfl⟩
            obtain ⟨ha, hb⟩ := List.mem_filter.1 hmem
            obtain ⟨hx, hy⟩ := (p1 d' v).1 ha
            exact ⟨hx, v, hy, (hacc v).1 (of_decide_eq_true hb)⟩
          · rintro ⟨hd, v, hv, hle⟩
            exact ⟨(d, v), List.mem_filter.2 ⟨(p1 d v).2 ⟨hd, hv⟩, decide_eq_true ((hacc v).2 hle)⟩, rfl⟩
        have hcn : cand.Nodup := (List.Sublist.map _ List.filter_sublist).nodup hpn
        refine ⟨hwatch, p4, ?_, Or.inr ⟨b0, ⟨d0, hd0'⟩, ?_, _, _, rfl, ?_, ?_, ?_⟩⟩
        · rw [List.nodup_append]
          refine ⟨((hso _).nodup_iff.2 p4).filter _, hwp.nodup_iff.2 hcn, ?_⟩
          intro a ha b hb e
          subst e
          exact (of_decide_eq_true (List.mem_filter.1 ha).2) hb
        · intro d hd v hv
          exact hbl v (List.mem_map.2 ⟨(d, v), (p1 d v).2 ⟨hd, hv⟩, rfl⟩)
        · intro d
          rw [hwp.mem_iff, hcm]
        · intro d
          rw [List.mem_filter, (hso _).mem_iff]
          simp
        · have hsorted : worthy.Pairwise (fun a b => value a ≥ value b) :=
            haveI : IsTrans C (fun a b => value a ≥ value b) := ⟨fun a b d h1 h2 => le_trans h2 h1⟩
            haveI : Std.Total (fun a b : C => value a ≥ value b) := ⟨fun a b => le_total _ _⟩
            List.pairwise_insertionSort _ _
          refine hsorted.imp_of_mem ?_
          intro a b ha hb hab va vb hva hvb
          have h1 := hval a va hva ((hcm a).1 (hwp.mem_iff.1 ha)).1
          have h2 := hval b vb hvb ((hcm b).1 (hwp.mem_iff.1 hb)).1
          omega
      | throws => rw [ht] at h; cases h
      | ub => rw [ht] at h; cases h
      | diverges => rw [ht] at h; cases h
  | throws => rw [hcal] at h; cases h
  | ub => rw [hcal] at h; cases h
  | diverges => rw [hcal] at h; cases h

theorem bind_ok_inv {α β : Type} {o : Outcome α} {f : α → Outcome β} {b : β} (h : o.bind f = .ok b) : ∃ a, o = .ok a ∧ f a = .ok b := by
  cases o with
  | ok a => exact ⟨a, rfl, h⟩
  | throws => cases h
  | ub => cases h
  | diverges => cases h

theorem bind_tooLong {α : Type} {o : Outcome α} {f : α → Outcome Result} {r : Result} (h : o.bind f = .ok r)
    (hf : ∀ a r, f a = .ok r → r.tooLong = false) : r.tooLong = false := by
  obtain ⟨a, -, h⟩ := bind_ok_inv h
  exact hf a r h

/-- Without a stored function, the methods ask for more measurements exactly if there are too few of them. -/
theorem needsMore_iff (c : Cfg) (iteration ph : Nat) (ev : EvidenceMap C) (params : C → List Rat) (conf : C) (hp : params conf = [])
    (hm : 0 < c.minEvidence) (hne : getEvidence ev conf ≠ []) :
    needsMore c iteration ph ev params conf ↔ (getEvidence ev conf).length < c.minEvidence := by
  obtain ⟨last, hl⟩ : ∃ last, (getEvidence ev conf).getLast? = some last := by
    cases h : (getEvidence ev conf).getLast? with
    | none => exact absurd (List.getLast?_eq_none_iff.1 h) hne
    | some l => exact ⟨l, rfl⟩
  have hpos := List.length_pos_of_ne_nil hne
  unfold needsMore
  rw [hp]
  constructor
  · rintro ⟨-, r, hr, ht⟩
    by_contra hge
    have hge : c.minEvidence ≤ (getEvidence ev conf).length := by omega
    suffices r.tooLong = false by rw [this] at ht; cases ht
    unfold predict at hr
    split at hr
    next hmth =>
      have h2 : c.minEvidence = 2 := by unfold Cfg.minEvidence; rw [hmth]
      unfold linePrediction at hr
      rw [hl] at hr
      dsimp only at hr
      rw [if_neg (by simp), if_pos (by omega)] at hr
      split at hr
      · split at hr
        · cases hr
        · exact bind_tooLong hr (fun a r h => by cases h; rfl)
      · cases hr
    next hmth =>
      unfold linearRegression at hr
      rw [hl] at hr
      dsimp only at hr
      rw [if_neg (by simp), if_pos (by omega)] at hr
      split at hr
      · cases hr; rfl
      · split at hr
        · cases hr
        · split at hr
          · cases hr
          · exact bind_tooLong hr (fun a r h => by cases h; rfl)
    next hmth =>
      unfold newtonPolynomial at hr
      rw [hl] at hr
      dsimp only at hr
      rw [if_neg (by simp only [List.length_nil]; omega), if_pos (by omega)] at hr
      split at hr
      · cases hr
      · exact bind_tooLong hr (fun a r h => by cases h; rfl)
    next hmth =>
      unfold lastResult at hr
      rw [hl] at hr
      dsimp only at hr
      rw [if_neg (by simp), if_pos (by omega)] at hr
      cases hr; rfl
  · intro hlt
    refine ⟨hne, ?_⟩
    unfold predict
    split
    next hmth =>
      have h2 : c.minEvidence = 2 := by unfold Cfg.minEvidence; rw [hmth]
      unfold linePrediction
      rw [hl]
      dsimp only
      rw [if_neg (by simp), if_neg (by omega)]
      exact ⟨_, rfl, rfl⟩
    next hmth =>
      unfold linearRegression
      rw [hl]
      dsimp only
      rw [if_neg (by simp), if_neg (by omega)]
      exact ⟨_, rfl, rfl⟩
    next hmth =>
      unfold newtonPolynomial
      rw [hl]
      dsimp only
      rw [if_neg (by simp only [List.length_nil]; omega), if_neg (by omega)]
      exact ⟨_, rfl, rfl⟩
    next hmth =>
      have h1 : c.minEvidence = 1 := by unfold Cfg.minEvidence; rw [hmth]
      omega

/-- One tuning phase: `reset` is called with the whole search space, and everything that is then in the queue is measured. -/
structure Phase (c : Cfg) (space : List C) (order setOrder : List C → List C) (ph : Nat) (ev : EvidenceMap C) (s : State C)
    (ev' : EvidenceMap C) (s' : State C) where
  iteration : Nat
  queue : List C
  mid : State C
  resets : reset c order setOrder iteration ph space ev s = .ok (queue, mid)
  tested : ∀ d ∈ queue, ∃ e, (getEvidence ev' d).getLast? = some e ∧ e.tuningPhase = ph
  untouched : ∀ d, d ∉ queue → getEvidence ev' d = getEvidence ev d
  state : s' = queue.foldl addEvidence mid

theorem addEvidence_fold (queue : List C) (s : State C) :
    (∀ d, d ∈ (queue.foldl addEvidence s).tooLong ↔ d ∈ s.tooLong ∧ d ∉ queue) ∧ (s.tooLong.Nodup → (queue.foldl addEvidence s).tooLong.Nodup) := by
  induction queue generalizing s with
  | nil => simp
  | cons q queue ih =>
    rw [List.foldl_cons]
    obtain ⟨h1, h2⟩ := ih (addEvidence s q)
    constructor
    · intro d
      rw [h1]
      unfold addEvidence
      simp only [List.mem_filter, decide_eq_true_eq, List.mem_cons, not_or]
      tauto
    · intro hn
      exact h2 (hn.filter _)

/-- Histories of tuning phases `0, 1, …` without rejected configurations. -/
inductive Phases (c : Cfg) (space : List C) (order setOrder : List C → List C) : Nat → EvidenceMap C → State C → Prop
  | start : Phases c space order setOrder 0 [] ⟨fun _ => [], []⟩
  | next {ph ev s ev' s'} : Phases c space order setOrder ph ev s → Phase c space order setOrder ph ev s ev' s' →
      Phases c space order setOrder (ph + 1) ev' s'

theorem phases_inv (c : Cfg) (hc : 1 ≤ c.relativeOptimumRange) (space : List C) (hq : space.Nodup) (order setOrder : List C → List C)
    (ho : ∀ l, (order l).Perm l) (hso : ∀ l, (setOrder l).Perm l) (ph : Nat) (ev : EvidenceMap C) (s : State C)
    (h : Phases c space order setOrder ph ev s) (h64 : ph < 2 ^ 64) :
    s.tooLong.Nodup ∧ (ph = 0 → ev = []) ∧ (0 < ph → ∀ d ∈ space, ∃ e, (getEvidence ev d).getLast? = some e ∧ e.tuningPhase < ph ∧
      ph ≤ e.tuningPhase + max c.maxTuningPhasesWithoutTest 1) := by
  induction h with
  | start => exact ⟨List.nodup_nil, fun _ => rfl, fun h => absurd h (lt_irrefl _)⟩
  | @next ph ev s ev' s' _ p ih =>
    obtain ⟨i1, i2, i3⟩ := ih (by omega)
    obtain ⟨r1, r2, r3, r4⟩ := reset_spec c hc order setOrder ho hso p.iteration ph space hq ev s i1 p.queue p.mid p.resets
    refine ⟨?_, fun h => absurd h (Nat.succ_ne_zero _), fun _ d hd => ?_⟩
    · rw [p.state]
      exact (addEvidence_fold _ _).2 r2
    · by_cases hin : d ∈ p.queue
      · obtain ⟨e, he, hph⟩ := p.tested d hin
        exact ⟨e, he, by omega, by have := le_max_right c.maxTuningPhasesWithoutTest 1; omega⟩
      · rw [p.untouched d hin]
        rcases r4 with ⟨-, hqq⟩ | ⟨best, ⟨d0, -, hd0⟩, -, watched, promising, hqq, -, hw, -⟩
        · exact absurd (by rw [hqq]; exact hd) hin
        · rcases Nat.eq_zero_or_pos ph with h0 | hpos
          · have hev := i2 h0
            unfold predictionOf at hd0
            rw [if_pos (by rw [hev]; rfl)] at hd0
            cases hd0
          · obtain ⟨e, he, hlt, hle⟩ := i3 hpos d hd
            refine ⟨e, he, by omega, ?_⟩
            by_contra hcon
            apply hin
            have : d ∈ p.mid.tooLong := (r1 d).2 (Or.inr ⟨hd, Or.inl ⟨e, he, by
              rw [subSize_eq hlt.le (by omega)]
              have := le_max_left c.maxTuningPhasesWithoutTest 1
              omega⟩⟩)
            rw [hqq, List.mem_append]
            by_cases hpr : d ∈ promising
            · exact Or.inr hpr
            · exact Or.inl ((hw d).2 ⟨this, hpr⟩)

theorem longMax_lt_doubleMax : (longMax : ℚ) < doubleMax := by
  unfold longMax doubleMax
  have h : (2 : ℚ) ^ 1024 = 2 ^ 53 * 2 ^ 971 := by rw [← pow_add]
  have h2 : (1 : ℚ) ≤ 2 ^ 907 := one_le_pow₀ (by norm_num)
  have h3 : (2 : ℚ) ^ 971 = 2 ^ 64 * 2 ^ 907 := by rw [← pow_add]
  rw [h, h3]
  generalize (2 : ℚ) ^ 907 = t at h2
  push_cast
  nlinarith

/-- A stored line is evaluated from its last point on. -/
theorem linePrediction_reuse (iteration ph : Nat) (g t : ℚ) (pre : List Evidence) (e : Evidence) (hnot : e.tuningPhase + 1 ≠ ph)
    (hle : e.iteration ≤ iteration) (h64 : iteration < 2 ^ 64) (h1 : |g * (iteration - e.iteration)| ≤ longMax)
    (h2 : |t + g * (iteration - e.iteration)| ≤ longMax) :
    ∃ v, linePrediction iteration ph [g, t] (pre ++ [e]) = .ok ⟨v, [g, t], false⟩ ∧ |(v : ℚ) - (t + g * (iteration - e.iteration))| < 1 := by
  have hsub : ((subSize iteration e.iteration : Nat) : ℚ) = iteration - e.iteration := by
    rw [subSize_eq hle h64, Nat.cast_sub hle]
  obtain ⟨v, hv⟩ := toLong_ok h2
  refine ⟨v, ?_, (toLong_close hv).1⟩
  unfold linePrediction
  rw [List.getLast?_concat]
  dsimp only
  rw [if_pos ⟨decide_eq_true hnot, rfl⟩, hsub]
  change (castChecked (safeMulD g (iteration - e.iteration) + t)).bind _ = _
  rw [safeMulD_eq h1]
  have hne : g * ((iteration : ℚ) - e.iteration) + t ≠ doubleMax := by
    intro h
    rw [add_comm, h] at h2
    have h3 := longMax_lt_doubleMax
    rw [abs_of_pos (lt_trans (by norm_num [longMax]) h3)] at h2
    linarith
  unfold castChecked
  rw [if_neg hne, add_comm, hv]
  rfl

/-- A stored regression line is evaluated. -/
theorem linearRegression_reuse (n iteration ph : Nat) (b a : ℚ) (pre : List Evidence) (e : Evidence) (hnot : e.tuningPhase + 1 ≠ ph)
    (h1 : |b * iteration| ≤ longMax) (h2 : |a + b * iteration| ≤ longMax) :
    ∃ v, linearRegression n iteration ph [b, a] (pre ++ [e]) = .ok ⟨v, [b, a], false⟩ ∧ |(v : ℚ) - (a + b * iteration)| < 1 := by
  obtain ⟨v, hv⟩ := toLong_ok h2
  refine ⟨v, ?_, (toLong_close hv).1⟩
  unfold linearRegression
  rw [List.getLast?_concat]
  dsimp only
  rw [if_pos ⟨decide_eq_true hnot, rfl⟩]
  change (castChecked (safeMulD b iteration + a)).bind _ = _
  rw [safeMulD_eq h1]
  have hne : b * (iteration : ℚ) + a ≠ doubleMax := by
    intro h
    rw [add_comm, h] at h2
    have h3 := longMax_lt_doubleMax
    rw [abs_of_pos (lt_trans (by norm_num [longMax]) h3)] at h2
    linarith
  unfold castChecked
  rw [if_neg hne, add_comm, hv]
  rfl

end Verif.PT
