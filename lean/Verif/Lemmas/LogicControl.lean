import Verif.Spec.ListUse
import Mathlib.Tactic.Linarith
/-! Invariants of the control state. -/
namespace Verif
open Spec

theorem Outcome.bind_ok {α β : Type} {x : Outcome α} {f : α → Outcome β} {b : β} :
    x.bind f = .ok b ↔ ∃ a, x = .ok a ∧ f a = .ok b := by
  cases x <;> simp [Outcome.bind]

variable {σ C : Type} [DecidableEq C]

theorem selectContainer_pres (s : Ctl σ C) (a b : Nat) :
    (s.selectContainer a b).valid = s.valid ∧ (s.selectContainer a b).steps = s.steps ∧
    (s.selectContainer a b).functorCalls = s.functorCalls ∧ (s.selectContainer a b).tuners = s.tuners := by
  unfold Ctl.selectContainer; split <;> simp

theorem selectFold_pres (cfg : CtlCfg σ C) (l : List C) : ∀ s : Ctl σ C,
    (l.foldl (fun s c => s.selectContainer (cfg.ctype c) (cfg.cinfo c)) s).valid = s.valid ∧
    (l.foldl (fun s c => s.selectContainer (cfg.ctype c) (cfg.cinfo c)) s).steps = s.steps ∧
    (l.foldl (fun s c => s.selectContainer (cfg.ctype c) (cfg.cinfo c)) s).functorCalls = s.functorCalls ∧
    (l.foldl (fun s c => s.selectContainer (cfg.ctype c) (cfg.cinfo c)) s).tuners = s.tuners := by
  induction l with
  | nil => intro s; exact ⟨rfl, rfl, rfl, rfl⟩
  | cons c l ih =>
    intro s
    rw [List.foldl_cons]
    have p := selectContainer_pres s (cfg.ctype c) (cfg.cinfo c)
    have := ih (s.selectContainer (cfg.ctype c) (cfg.cinfo c))
    rw [p.1, p.2.1, p.2.2.1, p.2.2.2] at this
    exact this

theorem selectConfiguration_pres {cfg : CtlCfg σ C} {fuel : Nat} {s : Ctl σ C} {ty : IType} {t : Tuner σ C} {rel : Bool}
    {v : C → Verdict} {r : Ctl σ C × Tuner σ C × Bool} (h : s.selectConfiguration cfg fuel ty t rel v = .ok r) :
    r.1.valid = s.valid ∧ r.1.steps = s.steps ∧ r.1.functorCalls = s.functorCalls ∧ r.1.tuners = s.tuners := by
  unfold Ctl.selectConfiguration at h
  split at h
  · obtain ⟨c, _, h⟩ := Outcome.bind_ok.1 h
    simp only at h
    by_cases hv : v c = .applicable
    · rw [if_pos hv] at h
      simp only [Outcome.ok.injEq] at h
      subst h
      simp only
      split
      · exact selectContainer_pres s _ _
      · exact ⟨rfl, rfl, rfl, rfl⟩
    · rw [if_neg hv] at h
      cases h
  · obtain ⟨c, _, h⟩ := Outcome.bind_ok.1 h
    simp only [Outcome.ok.injEq] at h
    subst h
    exact selectFold_pres cfg _ s

/-- The shape of a successful `computeInteractions`. -/
theorem compute_ok {cfg : CtlCfg σ C} {fuel : Nat} {s : Ctl σ C} {ty : IType} {rel : Bool} {v : C → Verdict} {time : Int}
    {r : Ctl σ C × List Event} (h : s.compute cfg fuel ty rel v time = .ok r) :
    r.1.valid = true ∧ r.1.steps = s.steps ∧ r.1.functorCalls = s.functorCalls + 1 ∧
      r.2 = (if s.valid then [] else [Event.built r.1.gen]) ++ [Event.used r.1.gen] := by
  unfold Ctl.compute at h
  split at h
  · cases h
  · obtain ⟨a, ha, h⟩ := Outcome.bind_ok.1 h
    obtain ⟨t', _, h⟩ := Outcome.bind_ok.1 h
    obtain ⟨p1, p2, p3, _⟩ := selectConfiguration_pres ha
    simp only [Outcome.ok.injEq] at h
    subst h
    refine ⟨rfl, p2, by simp [p3], ?_⟩
    simp only [p1]
    cases s.valid <;> simp

theorem bumpTuner_pres (cfg : CtlCfg σ C) (s : Ctl σ C) (ty other : IType) :
    (s.bumpTuner cfg ty other).valid = s.valid ∧ (s.bumpTuner cfg ty other).steps = s.steps ∧
    (s.bumpTuner cfg ty other).functorCalls = s.functorCalls ∧ (s.bumpTuner cfg ty other).gen = s.gen ∧
    (s.bumpTuner cfg ty other).ctype = s.ctype ∧ (s.bumpTuner cfg ty other).cinfo = s.cinfo := by
  unfold Ctl.bumpTuner; split <;> simp

theorem update_state (cfg : CtlCfg σ C) (s : Ctl σ C) :
    (s.update cfg).functorCalls = s.functorCalls ∧
    ((s.update cfg).valid = true → s.valid = true ∧ s.steps < cfg.rebuildFrequency) ∧
    (s.update cfg).steps = (if s.functorCalls > 0 then (if (s.update cfg).valid then s.steps else 0) + 1 else s.steps) := by
  have key : ∀ u : Ctl σ C, u = s.checkLists cfg → u.functorCalls = s.functorCalls ∧ u.steps = s.steps ∧
      (u.valid = true → s.valid = true ∧ s.steps < cfg.rebuildFrequency) := by
    rintro u rfl
    unfold Ctl.checkLists
    split
    · simp
    · rename_i h
      refine ⟨rfl, rfl, fun hv => ⟨hv, ?_⟩⟩
      push Not at h
      omega
  obtain ⟨k1, k2, k3⟩ := key _ rfl
  obtain ⟨a1, a2, a3, -⟩ := bumpTuner_pres cfg ((s.checkLists cfg).bumpTuner cfg .pairwise .triwise) .triwise .pairwise
  obtain ⟨b1, b2, b3, -⟩ := bumpTuner_pres cfg (s.checkLists cfg) .pairwise .triwise
  unfold Ctl.update
  by_cases h : s.functorCalls > 0
  · simp only [k1, if_pos h, a1, a2, a3, b1, b2, b3, k2]
    exact ⟨trivial, k3, trivial⟩
  · simp only [k1, if_neg h]
    exact ⟨trivial, k3, k2⟩

/-- Invariant for C23. -/
structure UseInv (n : Nat) (s : Ctl σ C) (tr : List Event) : Prop where
  used : UsedWithin n tr
  steps : s.steps ≤ n
  fresh : s.valid = true → 0 < s.functorCalls ∧
    ∃ old g since, tr = old ++ Event.built g :: since ∧ (∀ g', Event.built g' ∉ since) ∧
      since.count Event.update ≤ s.steps

theorem usedWithin_append {n : Nat} {tr ev : List Event} (h : UsedWithin n tr) (hev : ∀ g, Event.used g ∉ ev) :
    UsedWithin n (tr ++ ev) := by
  intro before gen after heq
  rw [List.append_eq_append_iff] at heq
  rcases heq with ⟨c, h1, h2⟩ | ⟨c, h1, h2⟩
  · exact absurd (by rw [h2]; simp) (hev gen)
  · cases c with
    | nil =>
      simp only [List.nil_append] at h2
      exact absurd (by rw [← h2]; simp) (hev gen)
    | cons x c =>
      simp only [List.cons_append, List.cons.injEq] at h2
      obtain ⟨rfl, h2⟩ := h2
      exact h before gen c h1

theorem usedWithin_snoc {n : Nat} {tr : List Event} {gen : Nat} (h : UsedWithin n tr)
    (hl : ∃ old g since, tr = old ++ Event.built g :: since ∧ (∀ g', Event.built g' ∉ since) ∧
      since.count Event.update ≤ n) : UsedWithin n (tr ++ [Event.used gen]) := by
  intro before g after heq
  rw [List.append_eq_append_iff] at heq
  rcases heq with ⟨c, h1, h2⟩ | ⟨c, h1, h2⟩
  · cases c with
    | nil =>
      simp only [List.append_nil] at h1
      subst h1
      exact hl
    | cons x c =>
      simp at h2
  · cases c with
    | nil =>
      simp only [List.append_nil] at h1
      subst h1
      exact hl
    | cons x c =>
      simp only [List.cons_append, List.cons.injEq] at h2
      obtain ⟨rfl, h2⟩ := h2
      exact h before g c h1

theorem useInv_step {cfg : CtlCfg σ C} (hf : 0 < cfg.rebuildFrequency) {fuel : Nat} {s : Ctl σ C} {tr : List Event}
    (h : UseInv cfg.rebuildFrequency s tr) {a : Action C} {r : Ctl σ C × List Event} (hr : s.step cfg fuel a = .ok r) :
    UseInv cfg.rebuildFrequency r.1 (tr ++ r.2) := by
  cases a with
  | update =>
    simp only [Ctl.step, Outcome.ok.injEq] at hr
    subst hr
    obtain ⟨u1, u2, u3⟩ := update_state cfg s
    have hu := usedWithin_append (ev := [Event.update]) h.used (by simp)
    refine ⟨hu, ?_, ?_⟩
    · simp only
      rw [u3]
      have := h.steps
      split_ifs with h1 h2
      · have := (u2 h2).2; omega
      · omega
      · exact this
    · simp only
      intro hv
      obtain ⟨v1, v2⟩ := u2 hv
      obtain ⟨f1, old, g, since, e1, e2, e3⟩ := h.fresh v1
      rw [u1]
      refine ⟨f1, old, g, since ++ [Event.update], by rw [e1]; simp, by simpa using e2, ?_⟩
      rw [u3, if_pos f1, if_pos hv, List.count_append]
      simp only [List.count_singleton, beq_self_eq_true, if_true]
      omega
  | compute ty rel v time =>
    obtain ⟨c1, c2, c3, c4⟩ := compute_ok hr
    rw [c4]
    by_cases hv : s.valid = true
    · rw [if_pos hv]
      obtain ⟨f1, old, g, since, e1, e2, e3⟩ := h.fresh hv
      refine ⟨?_, c2 ▸ h.steps, fun _ => ⟨by omega, ?_⟩⟩
      · exact usedWithin_snoc h.used ⟨old, g, since, e1, e2, le_trans e3 h.steps⟩
      · refine ⟨old, g, since ++ [Event.used r.1.gen], by rw [e1]; simp, by simpa using e2, ?_⟩
        rw [c2, List.count_append]
        simpa using e3
    · rw [if_neg hv, ← List.append_assoc]
      refine ⟨?_, c2 ▸ h.steps, fun _ => ⟨by omega, ?_⟩⟩
      · refine usedWithin_snoc (usedWithin_append h.used (by simp)) ⟨tr, r.1.gen, [], rfl, by simp, by simp⟩
      · exact ⟨tr, r.1.gen, [Event.used r.1.gen], by simp, by simp, by simp⟩
  | resizeBox ch =>
    simp only [Ctl.step, Outcome.ok.injEq] at hr
    subst hr
    simp only [List.append_nil]
    split
    · exact ⟨h.used, h.steps, fun hv => by simp at hv⟩
    · exact h
  | deleteAll =>
    simp only [Ctl.step, Outcome.ok.injEq] at hr
    subst hr
    simp only [List.append_nil]
    exact ⟨h.used, h.steps, fun hv => by simp at hv⟩
  | forceRetune =>
    simp only [Ctl.step, Outcome.ok.injEq] at hr
    subst hr
    simp only [List.append_nil]
    exact ⟨h.used, h.steps, h.fresh⟩

theorem useInv_run {cfg : CtlCfg σ C} (hf : 0 < cfg.rebuildFrequency) {fuel : Nat} {as : List (Action C)} :
    ∀ {s : Ctl σ C} {tr : List Event}, UseInv cfg.rebuildFrequency s tr → ∀ {r : Ctl σ C × List Event},
      s.run cfg fuel as = .ok r → UseInv cfg.rebuildFrequency r.1 (tr ++ r.2) := by
  induction as with
  | nil =>
    intro s tr h r hr
    simp only [Ctl.run, Outcome.ok.injEq] at hr
    subst hr
    simpa using h
  | cons a as ih =>
    intro s tr h r hr
    unfold Ctl.run at hr
    obtain ⟨x, hx, hr⟩ := Outcome.bind_ok.1 hr
    obtain ⟨y, hy, hr⟩ := Outcome.bind_ok.1 hr
    simp only [Outcome.ok.injEq] at hr
    subst hr
    simp only
    rw [← List.append_assoc]
    exact ih (useInv_step hf h hx) hy

end Verif
