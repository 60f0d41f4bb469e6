import Verif.Lemmas.SwitchLists
/-!
# C24 — A container switch is followed by a neighbour list build

`BuiltBeforeUse trace` (Verif/Spec/ListUse.lean): the lists of a container object are only used after they have been built
for this object. **The code violates this** (`C24_violated_*`): a new container object may be used while
`_neighborListsAreValid` is still set for the old one, so that its (empty) lists are used without being built. This happens
* when a tuning phase starts in an iteration that is not a rebuild iteration,
* when pairwise and triwise interactions use different containers,
* when `forceRetune` is called between `updateContainer` and `computeInteractions`.

What holds is `C24_built_before_use_partial`: with one interaction type and no forced retuning, lists are always built before
use if every *start* of a tuning phase falls on a rebuild iteration. The switches within a phase and at its end are never a
problem.
-/
namespace Verif
open Spec

variable {σ C : Type} [DecidableEq C]

/-- Simulation loop: one `updateContainer` and one pairwise `computeInteractions` per iteration. -/
def rounds (v : C → Verdict) (times : List Int) : List (Action C) :=
  times.flatMap fun time => [.update, .compute .pairwise true v time]

/-- A tuning phase will start in the iteration that follows the state of tuner `t`. -/
def PhaseStartsNext (cfg : TunerCfg σ C) (t : Tuner σ C) : Prop :=
  (t.iteration + 1) % cfg.tuningInterval = 0 ∧ t.isTuning = false ∧ t.trivial = false

theorem rounds_inv {cfg : CtlCfg σ C} {v : C → Verdict} {fuel : Nat} (hm : 0 < (cfg.tuner .pairwise).maxSamples)
    {times : List Int} : ∀ {s : Ctl σ C} {t : Tuner σ C} {tr : List Event}, PostInv cfg v s t tr →
      (∀ k s' tr' t', s.run cfg fuel (rounds v (times.take k)) = .ok (s', tr') → s'.tuners .pairwise = some t' →
        PhaseStartsNext (cfg.tuner .pairwise) t' → (s'.update cfg).valid = false) →
      ∀ {r : Ctl σ C × List Event}, s.run cfg fuel (rounds v times) = .ok r → BuiltBeforeUse (tr ++ r.2) := by
  induction times with
  | nil =>
    intro s t tr h _ r hr
    simp only [rounds, List.flatMap_nil, Ctl.run, Outcome.ok.injEq] at hr
    subst hr
    simpa using h.trace
  | cons x times ih =>
    intro s t tr h hs r hr
    have hh := hs 0 s [] t (by simp [rounds, Ctl.run]) h.tun
    obtain ⟨t1, hpre⟩ := update_inv hm h (by
      intro hv hi hmod
      by_contra hne
      have := hh ⟨hmod, hi, by simpa using hne⟩
      rw [this] at hv
      cases hv)
    simp only [rounds, List.flatMap_cons, List.cons_append, List.nil_append] at hr
    unfold Ctl.run at hr
    simp only [Ctl.step, Outcome.bind] at hr
    change (((s.update cfg).run cfg fuel _).bind _) = _ at hr
    obtain ⟨y, hy, hr⟩ := Outcome.bind_ok.1 hr
    simp only [Outcome.ok.injEq] at hr
    subst hr
    unfold Ctl.run at hy
    obtain ⟨z, hz, hy⟩ := Outcome.bind_ok.1 hy
    obtain ⟨w, hw, hy⟩ := Outcome.bind_ok.1 hy
    simp only [Outcome.ok.injEq] at hy
    subst hy
    simp only [Ctl.step] at hz
    obtain ⟨t2, hpost, _⟩ := compute_inv hm hpre hz
    have := ih hpost (by
      intro k s' tr' t' hrun htun hph
      refine hs (k + 1) s' ([Event.update] ++ (z.2 ++ tr')) t' ?_ htun hph
      simp only [rounds, List.take_succ_cons, List.flatMap_cons, List.cons_append, List.nil_append]
      unfold Ctl.run
      simp only [Ctl.step, Outcome.bind]
      unfold Ctl.run
      simp only [Ctl.step, hz, Outcome.bind]
      unfold rounds at hrun
      rw [hrun]
      simp) hw
    simpa [List.append_assoc] using this

/-- One pairwise tuner that has just been constructed, any search space, strategies, rejections and measured times. If the
lists are invalidated in every iteration in which a new tuning phase starts, then lists are always built before use. -/
theorem C24_built_before_use_partial (cfg : CtlCfg σ C) (hm : 0 < (cfg.tuner .pairwise).maxSamples) (fuel : Nat)
    (space : List C) (st : σ) (t : Tuner σ C) (ht : Tuner.init (cfg.tuner .pairwise) space st = .ok t) (ctype cinfo : Nat)
    (v : C → Verdict) (times : List Int)
    (hstart : ∀ k s tr t', (Ctl.init (fun ty => if ty = .pairwise then some t else none) ctype cinfo).run cfg fuel
        (rounds v (times.take k)) = .ok (s, tr) → s.tuners .pairwise = some t' →
      PhaseStartsNext (cfg.tuner .pairwise) t' → (s.update cfg).valid = false)
    (s : Ctl σ C) (trace : List Event)
    (hrun : (Ctl.init (fun ty => if ty = .pairwise then some t else none) ctype cinfo).run cfg fuel (rounds v times) =
      .ok (s, trace)) :
    BuiltBeforeUse trace := by
  have hti : t.forceRetune = false ∧ t.isTuning = false := by
    unfold Tuner.init at ht
    split at ht
    · cases ht
    · simp only [Outcome.ok.injEq] at ht
      subst ht
      simp
  set s0 := (Ctl.init (fun ty => if ty = .pairwise then some t else none) ctype cinfo : Ctl σ C) with hs0
  cases times with
  | nil =>
    simp only [rounds, List.flatMap_nil, Ctl.run, Outcome.ok.injEq, Prod.mk.injEq] at hrun
    obtain ⟨_, rfl⟩ := hrun
    intro b g a hx
    simp at hx
  | cons x times =>
    -- the first iteration
    have hu : ∀ u, u = s0.update cfg → u.tuners = s0.tuners ∧ u.valid = false := by
      rintro u rfl
      unfold Ctl.update Ctl.checkLists
      split <;> simp [hs0, Ctl.init]
    obtain ⟨u1, u2⟩ := hu _ rfl
    have hpre : PreInv cfg v (s0.update cfg) t [Event.update] := by
      refine ⟨by rw [u1]; simp [hs0, Ctl.init], by rw [u1]; simp [hs0, Ctl.init], hti.1, ?_, ?_, ?_⟩
      · intro b g a hx
        rcases b with - | ⟨e, b⟩ <;> simp at hx
      · intro hx; rw [hti.2] at hx; cases hx
      · intro hx; rw [u2] at hx; cases hx
    simp only [rounds, List.flatMap_cons, List.cons_append, List.nil_append] at hrun
    unfold Ctl.run at hrun
    simp only [Ctl.step, Outcome.bind] at hrun
    change (((s0.update cfg).run cfg fuel _).bind _) = _ at hrun
    obtain ⟨y, hy, hr⟩ := Outcome.bind_ok.1 hrun
    simp only [Outcome.ok.injEq, Prod.mk.injEq] at hr
    obtain ⟨_, rfl⟩ := hr
    unfold Ctl.run at hy
    obtain ⟨z, hz, hy⟩ := Outcome.bind_ok.1 hy
    obtain ⟨w, hw, hy⟩ := Outcome.bind_ok.1 hy
    simp only [Outcome.ok.injEq] at hy
    subst hy
    simp only [Ctl.step] at hz
    obtain ⟨t2, hpost, _⟩ := compute_inv hm hpre hz
    have := rounds_inv hm hpost (times := times) (by
      intro k s' tr' t' hrun htun hph
      refine hstart (k + 1) s' ([Event.update] ++ (z.2 ++ tr')) t' ?_ htun hph
      simp only [rounds, List.take_succ_cons, List.flatMap_cons, List.cons_append, List.nil_append]
      unfold Ctl.run
      simp only [Ctl.step, Outcome.bind]
      unfold Ctl.run
      simp only [Ctl.step, hz, Outcome.bind]
      unfold rounds at hrun
      rw [hrun]
      simp) hw
    simpa [List.append_assoc] using this

/-! ### Concrete histories

Configuration 0 uses container type 0, configuration 1 container type 1. -/

/-- Full search, one sample per configuration, tuning every 5 iterations, lists rebuilt every `n` iterations. -/
def c24Cfg (n : Nat) : CtlCfg Unit Nat :=
  { tuner := fun _ => { tuningInterval := 5, maxSamples := 1, rebuildFrequency := n, selector := .fastestAbs,
                        strategies := [], smooth := none }
    rebuildFrequency := n, ctype := id, cinfo := fun _ => 0 }

/-- A new tuner with the given search space. -/
def c24Tuner (space : List Nat) : Tuner Unit Nat :=
  { iteration := 0, tuningPhase := 0, iterationBaseline := 0, isTuning := false, forceRetune := false, samplesNot := [0],
    samplesReb := [], evidence := [], searchSpace := space, queue := space, strat := () }

/-- Initial state with one pairwise tuner. -/
def c24Init (space : List Nat) : Ctl Unit Nat := Ctl.init (fun ty => if ty = .pairwise then some (c24Tuner space) else none) 0 0

-- it is a new tuner
example : Tuner.init ((c24Cfg 10).tuner .pairwise) [0, 1] () = .ok (c24Tuner [0, 1]) := rfl

/-- Configuration 1 turns out to be faster than configuration 0. -/
def c24Times : List Int := [20, 10, 10, 10, 10, 20, 10]

/-- Events of a run. -/
def c24Trace (n : Nat) (s : Ctl Unit Nat) (h : List (Action Nat)) : List Event :=
  match s.run (c24Cfg n) 10 h with
  | .ok r => r.2
  | _ => []

/-- With a rebuild frequency of 10 the second tuning phase (6th iteration) switches to a new container object, number 2,
and uses its lists without building them. -/
theorem C24_violated_at_phase_start : ∃ s, (c24Init [0, 1]).run (c24Cfg 10) 10 (rounds (fun _ => .applicable) (c24Times.take 6)) =
    .ok (s, [.update, .built 0, .used 0, .update, .built 1, .used 1, .update, .built 1, .used 1, .update, .used 1,
      .update, .used 1, .update, .used 2]) := ⟨_, rfl⟩

/-- Hence the property does not hold in general. -/
theorem C24_violated : ¬ ∀ (cfg : CtlCfg Unit Nat) (fuel : Nat) (s0 s : Ctl Unit Nat) (h : List (Action Nat)) (tr : List Event),
    s0.valid = false → s0.run cfg fuel h = .ok (s, tr) → BuiltBeforeUse tr := by
  intro hall
  obtain ⟨s, hs⟩ := C24_violated_at_phase_start
  have := hall _ _ _ _ _ _ rfl hs [.update, .built 0, .used 0, .update, .built 1, .used 1, .update, .built 1, .used 1,
    .update, .used 1, .update, .used 1, .update] 2 [] rfl
  revert this
  decide

/-- With pairwise interactions on container type 0 and triwise interactions on container type 1 (both with a single
configuration) the container is exchanged in every call, but lists are only built in the first. -/
theorem C24_violated_two_interaction_types : ∃ s,
    (Ctl.init (fun ty => if ty = .pairwise then some (c24Tuner [0]) else some (c24Tuner [1])) 0 0).run (c24Cfg 10) 10
      [.update, .compute .pairwise true (fun _ => .applicable) 5, .compute .triwise true (fun _ => .applicable) 5,
       .update, .compute .pairwise true (fun _ => .applicable) 5, .compute .triwise true (fun _ => .applicable) 5] =
    .ok (s, [.update, .built 0, .used 0, .used 1, .update, .used 2, .used 3]) := ⟨_, rfl⟩

/-- `forceRetune` right before `computeInteractions`: the new container (number 2) is used without built lists. -/
theorem C24_violated_by_forceRetune : ∃ s,
    (c24Init [0, 1]).run (c24Cfg 10) 10 (rounds (fun _ => .applicable) (c24Times.take 4) ++
      [.update, .forceRetune, .compute .pairwise true (fun _ => .applicable) 5]) =
    .ok (s, [.update, .built 0, .used 0, .update, .built 1, .used 1, .update, .built 1, .used 1, .update, .used 1,
      .update, .used 2]) := ⟨_, rfl⟩

-- the hypothesis of the partial theorem is met, e.g. with a rebuild frequency of 3: the 6th iteration is a rebuild iteration
example : c24Trace 3 (c24Init [0, 1]) (rounds (fun _ => .applicable) c24Times) =
    [.update, .built 0, .used 0, .update, .built 1, .used 1, .update, .built 1, .used 1, .update, .used 1,
      .update, .used 1, .update, .built 2, .used 2, .update, .built 3, .used 3] := by decide
example : (List.range 8).all (fun k =>
    match (c24Init [0, 1]).run (c24Cfg 3) 10 (rounds (fun _ => .applicable) (c24Times.take k)) with
    | .ok (s, _) => !(s.tuners .pairwise).any (fun t => decide ((t.iteration + 1) % 5 = 0) && !t.isTuning && !t.trivial) ||
        !(s.update (c24Cfg 3)).valid
    | _ => false) = true := by decide

end Verif
