import Verif.Spec.ExceptionHandler
import Mathlib.Logic.Basic
import Mathlib.Tactic.ByContra
import Mathlib.Tactic.Push
/-!
# C126 — the exception handler may be used by any number of threads

In every execution, calls of the handler take effect one after the other: each ends as the settings at that moment demand, and every thread's calls take effect in
its order (`C126_linearizable`, `C126_program_order`). The handler stays usable after exceptions have been thrown: a thread can always proceed
(`C126_no_deadlock_partial`), and each call takes at most four steps (`C126_terminates`).

Except: `rethrow` outside of a catch block blocks its thread, and all later users of the handler, for ever (`C126_violated_rethrow_outside`), and so does a custom
abort function that uses the handler (`C126_violated_reentrant_abort`). Exceptions not derived from `std::exception` are thrown on although the behavior is to
ignore or to abort (`C126_violated_foreign`).
-/
namespace Verif
open Spec
variable {E : Type}

theorem seqHistory_append {st st1 st2 : HSettings E} {h : List (Nat × HCall E × HRes E)} (h1 : SequentialHistory st h st1) {i : Nat} {c : HCall E} {r : HRes E}
    (h2 : handlerCall st1 c = some (r, st2)) : SequentialHistory st (h ++ [(i, c, r)]) st2 := by
  induction h generalizing st with
  | nil => cases h1; exact ⟨st2, h2, rfl⟩
  | cons a h ih => obtain ⟨j, d, q⟩ := a; obtain ⟨st', h3, h4⟩ := h1; exact ⟨st', h3, ih h4⟩

/-- The call a thread is in. -/
def HPhase.inFlight : HPhase E → List (HCall E)
  | .outside => []
  | .locked c => [c]
  | .nonThrow c _ => [c]
  | .leaving c _ => [c]

/-- The calls of thread `i` that have ended. -/
def HState.doneBy (s : HState E) (i : Nat) : List (HCall E) := (s.history.filter fun a => a.1 == i).map fun a => a.2.1

structure HandlerInv (st0 : HSettings E) (programs : Nat → List (HCall E)) (s : HState E) : Prop where
  owner : ∀ i, (s.threads i).phase ≠ .outside → s.owner = some i
  held : ∀ i, s.owner = some i → (s.threads i).phase ≠ .outside
  reports : ∀ i c e, (s.threads i).phase = .nonThrow c e → (c = .exception e ∨ c = .rethrow (.std e)) ∧ s.behavior ≠ .throwException
  quiet : (∀ i c r, (s.threads i).phase ≠ .leaving c r) → SequentialHistory st0 s.history (s.behavior, s.custom)
  leaving : ∀ i c r, (s.threads i).phase = .leaving c r →
    ∃ st1, SequentialHistory st0 s.history st1 ∧ handlerCall st1 c = some (r, (s.behavior, s.custom))
  order : s.aborted = false → ∀ i, s.doneBy i ++ (s.threads i).phase.inFlight ++ (s.threads i).todo = programs i
  orderAborted : s.aborted = true → ∀ i, s.doneBy i <+: programs i

theorem hinv_init (programs : Nat → List (HCall E)) (b : HBehavior) (f : HCustom E) : HandlerInv (b, f) programs (HState.init programs b f) where
  owner := fun i h => absurd rfl h
  held := fun i h => by cases h
  reports := fun i c e h => by cases h
  quiet := fun _ => rfl
  leaving := fun i c r h => by cases h
  order := fun _ i => rfl
  orderAborted := fun h => by cases h

section
variable {st0 : HSettings E} {programs : Nat → List (HCall E)} {s : HState E} {i : Nat}

theorem HandlerInv.noLeaving (hs : HandlerInv st0 programs s) (hi : s.owner = some i) (hn : ∀ c r, (s.threads i).phase ≠ .leaving c r) :
    ∀ j c r, (s.threads j).phase ≠ .leaving c r := by
  intro j c r h
  have hj := hs.owner j (by rw [h]; exact fun h => by cases h)
  rw [hi] at hj
  cases hj
  exact hn c r h

/-- The thread in the handler goes to another phase without settings changing. -/
theorem HandlerInv.toLeaving (hs : HandlerInv st0 programs s) (ha : s.aborted = false) {c : HCall E} {r : HRes E} (hin : (s.threads i).phase.inFlight = [c])
    (hn : ∀ c r, (s.threads i).phase ≠ .leaving c r) {b : HBehavior} {f : HCustom E} (hc : handlerCall (s.behavior, s.custom) c = some (r, (b, f))) :
    HandlerInv st0 programs { s.setPhase i (.leaving c r) with behavior := b, custom := f } := by
  have hne : (s.threads i).phase ≠ .outside := by intro h; rw [h] at hin; cases hin
  have hi := hs.owner i hne
  have hq := hs.quiet (hs.noLeaving hi hn)
  have hother : ∀ j, j ≠ i → (s.threads j).phase = .outside := by
    intro j hj
    by_contra h
    have := hs.owner j h
    rw [hi] at this
    cases this
    exact hj rfl
  refine ⟨?_, ?_, ?_, ?_, ?_, ?_, ?_⟩
  · intro j hj
    by_cases hji : j = i
    · subst hji; exact hi
    · simp only [HState.setPhase, hji, if_false] at hj
      exact absurd (hother j hji) hj
  · intro j hj
    have hj' : s.owner = some j := hj
    rw [hi] at hj'
    cases hj'
    simp [HState.setPhase]
  · intro j d e h
    by_cases hji : j = i
    · subst hji; simp [HState.setPhase] at h
    · simp only [HState.setPhase, hji, if_false] at h; rw [hother j hji] at h; cases h
  · intro h
    exact absurd (by simp [HState.setPhase]) (h i c r)
  · intro j d q h
    by_cases hji : j = i
    · subst hji
      simp only [HState.setPhase, if_true, HPhase.leaving.injEq] at h
      obtain ⟨rfl, rfl⟩ := h
      exact ⟨_, hq, hc⟩
    · simp only [HState.setPhase, hji, if_false] at h; rw [hother j hji] at h; cases h
  · intro _ j
    have := hs.order ha j
    by_cases hji : j = i
    · subst hji
      rw [hin] at this
      simp only [HState.setPhase, if_true, HPhase.inFlight]
      exact this
    · simp only [HState.setPhase, hji, if_false]
      exact this
  · intro h
    have h' : s.aborted = true := h
    rw [ha] at h'; cases h'

theorem HandlerInv.toAbort (hs : HandlerInv st0 programs s) (ha : s.aborted = false) {c : HCall E} (hin : (s.threads i).phase.inFlight = [c])
    (hn : ∀ c r, (s.threads i).phase ≠ .leaving c r) (hc : handlerCall (s.behavior, s.custom) c = some (.aborted, (s.behavior, s.custom))) :
    HandlerInv st0 programs (s.abort i c) := by
  have hne : (s.threads i).phase ≠ .outside := by intro h; rw [h] at hin; cases hin
  have hi := hs.owner i hne
  have hnl := hs.noLeaving hi hn
  refine ⟨hs.owner, hs.held, hs.reports, fun _ => seqHistory_append (hs.quiet hnl) hc, fun j d q h => absurd h (hnl j d q), ?_, ?_⟩
  · intro h; cases h
  · intro _ j
    have := hs.order ha j
    unfold HState.abort HState.doneBy
    simp only
    rw [List.filter_append, List.map_append]
    by_cases hji : i = j
    · subst hji
      rw [hin] at this
      simp only [List.filter_cons, List.filter_nil, beq_self_eq_true, if_true, List.map_cons, List.map_nil]
      exact ⟨_, this⟩
    · have hb : (i == j) = false := by simp [hji]
      simp only [List.filter_cons, List.filter_nil, hb, Bool.false_eq_true, if_false, List.map_nil, List.append_nil]
      rw [List.append_assoc] at this
      exact ⟨_, this⟩

theorem hinv_step {s' : HState E} (hs : HandlerInv st0 programs s) (h : s.step i = some s') : HandlerInv st0 programs s' := by
  unfold HState.step at h
  cases ha : s.aborted with
  | true => rw [ha] at h; simp at h
  | false =>
    rw [ha] at h
    simp only [Bool.false_eq_true, if_false] at h
    cases hp : (s.threads i).phase with
    | outside =>
      rw [hp] at h
      simp only at h
      cases ht : (s.threads i).todo with
      | nil => rw [ht] at h; cases h
      | cons c cs =>
        rw [ht] at h
        simp only at h
        by_cases ho : s.owner = none
        · rw [if_pos ho] at h
          simp only [Option.some.injEq] at h
          subst h
          have hall : ∀ j, (s.threads j).phase = .outside := by
            intro j
            by_contra hj
            have := hs.owner j hj
            rw [ho] at this; cases this
          refine ⟨?_, ?_, ?_, ?_, ?_, ?_, ?_⟩
          · intro j hj
            by_cases hji : j = i
            · rw [hji]
            · simp only [hji, if_false] at hj; exact absurd (hall j) hj
          · intro j hj
            simp only [Option.some.injEq] at hj
            subst hj
            simp
          · intro j d e hj
            by_cases hji : j = i
            · simp only [hji, if_true] at hj; cases hj
            · simp only [hji, if_false] at hj; rw [hall j] at hj; cases hj
          · intro _
            exact hs.quiet fun j d q hj => by rw [hall j] at hj; cases hj
          · intro j d q hj
            by_cases hji : j = i
            · simp only [hji, if_true] at hj; cases hj
            · simp only [hji, if_false] at hj; rw [hall j] at hj; cases hj
          · intro _ j
            have := hs.order ha j
            by_cases hji : j = i
            · subst hji
              rw [hp, ht] at this
              simp only [if_true, HPhase.inFlight]
              simpa [HPhase.inFlight, HState.doneBy] using this
            · simp only [hji, if_false]; exact this
          · intro hh
            cases hh
        · rw [if_neg ho] at h; cases h
    | locked c =>
      rw [hp] at h
      have hin : (s.threads i).phase.inFlight = [c] := by rw [hp]; rfl
      have hn : ∀ c r, (s.threads i).phase ≠ .leaving c r := by intro c r; rw [hp]; exact fun h => by cases h
      have hi := hs.owner i (by rw [hp]; exact fun h => by cases h)
      -- going on to `nonThrowException`
      have toNon : ∀ e, (c = .exception e ∨ c = .rethrow (.std e)) → s.behavior ≠ .throwException → HandlerInv st0 programs (s.setPhase i (.nonThrow c e)) := by
        intro e hce hb
        have hother : ∀ j, j ≠ i → (s.threads j).phase = .outside := by
          intro j hj
          by_contra h
          have := hs.owner j h
          rw [hi] at this
          cases this
          exact hj rfl
        refine ⟨?_, ?_, ?_, ?_, ?_, ?_, ?_⟩
        · intro j hj
          by_cases hji : j = i
          · subst hji; exact hi
          · simp only [HState.setPhase, hji, if_false] at hj; exact absurd (hother j hji) hj
        · intro j hj
          have hj' : s.owner = some j := hj
          rw [hi] at hj'
          cases hj'
          simp [HState.setPhase]
        · intro j d e' hj
          by_cases hji : j = i
          · subst hji
            simp only [HState.setPhase, if_true, HPhase.nonThrow.injEq] at hj
            obtain ⟨rfl, rfl⟩ := hj
            exact ⟨hce, hb⟩
          · simp only [HState.setPhase, hji, if_false] at hj; rw [hother j hji] at hj; cases hj
        · intro _
          exact hs.quiet (hs.noLeaving hi hn)
        · intro j d q hj
          by_cases hji : j = i
          · simp only [HState.setPhase, hji, if_true] at hj; cases hj
          · simp only [HState.setPhase, hji, if_false] at hj; rw [hother j hji] at hj; cases hj
        · intro _ j
          have := hs.order ha j
          by_cases hji : j = i
          · subst hji
            rw [hin] at this
            simp only [HState.setPhase, if_true, HPhase.inFlight]
            exact this
          · simp only [HState.setPhase, hji, if_false]; exact this
        · intro hh
          have h' : s.aborted = true := hh
          rw [ha] at h'; cases h'
      cases c with
      | setBehavior b =>
        simp only [Option.some.injEq] at h
        subst h
        exact hs.toLeaving ha hin hn rfl
      | setCustomAbortFunction f =>
        simp only [Option.some.injEq] at h
        subst h
        exact hs.toLeaving ha hin hn rfl
      | exception e =>
        simp only at h
        by_cases hb : s.behavior = .throwException
        · rw [if_pos hb, Option.some.injEq] at h
          subst h
          exact hs.toLeaving ha hin hn (by simp [handlerCall, reportResult, hb])
        · rw [if_neg hb, Option.some.injEq] at h
          subst h
          exact toNon e (Or.inl rfl) hb
      | rethrow cur =>
        cases cur with
        | none => cases h
        | std e =>
          simp only at h
          by_cases hb : s.behavior = .throwException
          · rw [if_pos hb, Option.some.injEq] at h
            subst h
            exact hs.toLeaving ha hin hn (by simp [handlerCall, reportResult, hb])
          · rw [if_neg hb, Option.some.injEq] at h
            subst h
            exact toNon e (Or.inr rfl) hb
        | foreign e =>
          simp only [Option.some.injEq] at h
          subst h
          exact hs.toLeaving ha hin hn rfl
    | nonThrow c e =>
      rw [hp] at h
      have hin : (s.threads i).phase.inFlight = [c] := by rw [hp]; rfl
      have hn : ∀ c r, (s.threads i).phase ≠ .leaving c r := by intro c r; rw [hp]; exact fun h => by cases h
      obtain ⟨hce, hbt⟩ := hs.reports i c e hp
      have hcall : handlerCall (s.behavior, s.custom) c = (reportResult (s.behavior, s.custom) e).map fun r => (r, (s.behavior, s.custom)) := by
        rcases hce with rfl | rfl <;> rfl
      simp only at h
      cases hb : s.behavior with
      | ignore =>
        rw [hb] at h; simp only [Option.some.injEq] at h; subst h
        exact hs.toLeaving ha hin hn (by rw [hcall]; simp [reportResult, hb])
      | throwException => exact absurd hb hbt
      | printAbort =>
        rw [hb] at h; simp only [Option.some.injEq] at h; subst h
        exact hs.toAbort ha hin hn (by rw [hcall]; simp [reportResult, hb])
      | printCustomAbortFunction =>
        rw [hb] at h
        simp only at h
        cases hf : s.custom with
        | returns =>
          rw [hf] at h; simp only [Option.some.injEq] at h; subst h
          exact hs.toLeaving ha hin hn (by rw [hcall]; simp [reportResult, hb, hf])
        | throws e' =>
          rw [hf] at h; simp only [Option.some.injEq] at h; subst h
          exact hs.toLeaving ha hin hn (by rw [hcall]; simp [reportResult, hb, hf])
        | aborts =>
          rw [hf] at h; simp only [Option.some.injEq] at h; subst h
          exact hs.toAbort ha hin hn (by rw [hcall]; simp [reportResult, hb, hf])
        | reenters => rw [hf] at h; cases h
    | leaving c r =>
      rw [hp] at h
      simp only [Option.some.injEq] at h
      subst h
      have hi := hs.owner i (by rw [hp]; exact fun h => by cases h)
      have hother : ∀ j, j ≠ i → (s.threads j).phase = .outside := by
        intro j hj
        by_contra h
        have := hs.owner j h
        rw [hi] at this
        cases this
        exact hj rfl
      obtain ⟨st1, h1, h2⟩ := hs.leaving i c r hp
      have hout : ∀ j, ((s.setPhase i .outside).threads j).phase = .outside := by
        intro j
        by_cases hji : j = i
        · simp [HState.setPhase, hji]
        · simp only [HState.setPhase, hji, if_false]; exact hother j hji
      refine ⟨fun j hj => absurd (hout j) hj, fun j hj => (by cases hj), ?_, ?_, ?_, ?_, ?_⟩
      · intro j d e hj
        have hj' : ((s.setPhase i .outside).threads j).phase = .nonThrow d e := hj
        rw [hout j] at hj'; cases hj'
      · intro _; exact seqHistory_append h1 h2
      · intro j d q hj
        have hj' : ((s.setPhase i .outside).threads j).phase = .leaving d q := hj
        rw [hout j] at hj'; cases hj'
      · intro _ j
        have := hs.order ha j
        unfold HState.doneBy
        simp only
        rw [List.filter_append, List.map_append]
        by_cases hji : j = i
        · subst hji
          rw [hp] at this
          simp only [List.filter_cons, List.filter_nil, beq_self_eq_true, if_true, List.map_cons, List.map_nil, HState.setPhase, HPhase.inFlight,
            List.append_nil]
          exact this
        · have hb : (i == j) = false := by simp [Ne.symm hji]
          simp only [List.filter_cons, List.filter_nil, hb, Bool.false_eq_true, if_false, List.map_nil, List.append_nil, HState.setPhase, hji]
          exact this
      · intro hh
        have h' : s.aborted = true := hh
        rw [ha] at h'; cases h'

theorem hinv_run : ∀ (schedule : List Nat) (s : HState E), HandlerInv st0 programs s → HandlerInv st0 programs (s.run schedule) := by
  intro schedule
  induction schedule with
  | nil => intro s h; exact h
  | cons i is ih =>
    intro s h
    unfold HState.run
    apply ih
    cases h1 : s.step i with
    | none => exact h
    | some s' => exact hinv_step h h1

end

/-- Calls take effect one after the other: for every program of every thread and every schedule there are settings with which the calls that have ended, in the
order in which they ended, are what a single caller would see. -/
theorem C126_linearizable (programs : Nat → List (HCall E)) (b : HBehavior) (f : HCustom E) (schedule : List Nat) :
    ∃ st, SequentialHistory (b, f) ((HState.init programs b f).run schedule).history st := by
  have h := hinv_run schedule _ (hinv_init programs b f)
  by_cases hq : ∀ i c r, (((HState.init programs b f).run schedule).threads i).phase ≠ .leaving c r
  · exact ⟨_, h.quiet hq⟩
  · push Not at hq
    obtain ⟨i, c, r, hl⟩ := hq
    obtain ⟨st1, h1, -⟩ := h.leaving i c r hl
    exact ⟨st1, h1⟩

/-- The calls of each thread take effect in its order; when it has none left and is outside, all have. -/
theorem C126_program_order (programs : Nat → List (HCall E)) (b : HBehavior) (f : HCustom E) (schedule : List Nat) (i : Nat) :
    ((HState.init programs b f).run schedule).doneBy i <+: programs i := by
  have h := hinv_run schedule _ (hinv_init programs b f)
  cases ha : ((HState.init programs b f).run schedule).aborted with
  | true => exact h.orderAborted ha i
  | false =>
    have := h.order ha i
    rw [List.append_assoc] at this
    exact ⟨_, this⟩

/-- A call that never ends with the settings of the moment. -/
def HState.stuck (s : HState E) (i : Nat) : Prop := ∃ c, (s.threads i).phase.inFlight = [c] ∧ handlerCall (s.behavior, s.custom) c = none

/-- No deadlock: while the process runs and some thread has calls to make or to finish, some thread can take a step, unless the thread in the handler is in a call
that never ends. -/
theorem C126_no_deadlock_partial (programs : Nat → List (HCall E)) (b : HBehavior) (f : HCustom E) (schedule : List Nat)
    (s : HState E) (hs : s = (HState.init programs b f).run schedule) (ha : s.aborted = false) (hwork : ∃ i, (s.threads i).phase ≠ .outside ∨ (s.threads i).todo ≠ []) :
    (∃ i, (s.step i).isSome = true) ∨ ∃ i, s.stuck i := by
  have h := hinv_run schedule _ (hinv_init programs b f)
  rw [← hs] at h
  cases ho : s.owner with
  | none =>
    obtain ⟨i, hi⟩ := hwork
    have hout : (s.threads i).phase = .outside := by
      by_contra hx
      have := h.owner i hx
      rw [ho] at this; cases this
    rcases hi with hi | hi
    · exact absurd hout hi
    · left
      refine ⟨i, ?_⟩
      unfold HState.step
      rw [ha, hout]
      cases ht : (s.threads i).todo with
      | nil => exact absurd ht hi
      | cons c cs => simp [ho]
  | some i =>
    have hne := h.held i ho
    cases hp : (s.threads i).phase with
    | outside => exact absurd hp hne
    | leaving c r => left; refine ⟨i, ?_⟩; unfold HState.step; rw [ha, hp]; rfl
    | locked c =>
      cases c with
      | setBehavior b => left; refine ⟨i, ?_⟩; unfold HState.step; rw [ha, hp]; rfl
      | setCustomAbortFunction f => left; refine ⟨i, ?_⟩; unfold HState.step; rw [ha, hp]; rfl
      | exception e =>
        left; refine ⟨i, ?_⟩; unfold HState.step; rw [ha, hp]; simp only [Bool.false_eq_true, if_false]
        by_cases hb : s.behavior = .throwException <;> simp [hb]
      | rethrow cur =>
        cases cur with
        | none => right; exact ⟨i, .rethrow .none, by rw [hp]; rfl, rfl⟩
        | std e =>
          left; refine ⟨i, ?_⟩; unfold HState.step; rw [ha, hp]; simp only [Bool.false_eq_true, if_false]
          by_cases hb : s.behavior = .throwException <;> simp [hb]
        | foreign e => left; refine ⟨i, ?_⟩; unfold HState.step; rw [ha, hp]; rfl
    | nonThrow c e =>
      obtain ⟨hce, hbt⟩ := h.reports i c e hp
      have hcall : handlerCall (s.behavior, s.custom) c = (reportResult (s.behavior, s.custom) e).map fun r => (r, (s.behavior, s.custom)) := by
        rcases hce with rfl | rfl <;> rfl
      cases hb : s.behavior with
      | throwException => exact absurd hb hbt
      | ignore => left; refine ⟨i, ?_⟩; unfold HState.step; rw [ha, hp]; simp [hb]
      | printAbort => left; refine ⟨i, ?_⟩; unfold HState.step; rw [ha, hp]; simp [hb]
      | printCustomAbortFunction =>
        cases hf : s.custom with
        | returns => left; refine ⟨i, ?_⟩; unfold HState.step; rw [ha, hp]; simp [hb, hf]
        | throws e' => left; refine ⟨i, ?_⟩; unfold HState.step; rw [ha, hp]; simp [hb, hf]
        | aborts => left; refine ⟨i, ?_⟩; unfold HState.step; rw [ha, hp]; simp [hb, hf]
        | reenters =>
          right
          exact ⟨i, c, by rw [hp]; rfl, by rw [hcall]; simp [reportResult, hb, hf]⟩

/-- Steps a thread still has to take. -/
def HPhase.rank : HPhase E → Nat
  | .outside => 0
  | .locked _ => 3
  | .nonThrow _ _ => 2
  | .leaving _ _ => 1

/-- Each step brings its thread nearer to its end: at most four per call. -/
theorem C126_terminates {s s' : HState E} {i : Nat} (h : s.step i = some s') :
    s'.aborted = true ∨ ((s'.threads i).phase.rank + 4 * (s'.threads i).todo.length < (s.threads i).phase.rank + 4 * (s.threads i).todo.length ∧
      ∀ j, j ≠ i → s'.threads j = s.threads j) := by
  unfold HState.step at h
  cases ha : s.aborted with
  | true => rw [ha] at h; simp at h
  | false =>
    rw [ha] at h
    simp only [Bool.false_eq_true, if_false] at h
    have hset : ∀ ph : HPhase E, ph.rank < (s.threads i).phase.rank → ∀ b f, 
        (({ s.setPhase i ph with behavior := b, custom := f } : HState E).threads i).phase.rank + 4 * (({ s.setPhase i ph with behavior := b, custom := f } : HState E).threads i).todo.length <
          (s.threads i).phase.rank + 4 * (s.threads i).todo.length ∧ ∀ j, j ≠ i → ({ s.setPhase i ph with behavior := b, custom := f } : HState E).threads j = s.threads j := by
      intro ph hph b f
      refine ⟨by simp only [HState.setPhase, if_true]; omega, fun j hj => by simp [HState.setPhase, hj]⟩
    cases hp : (s.threads i).phase with
    | outside =>
      rw [hp] at h
      simp only at h
      cases ht : (s.threads i).todo with
      | nil => rw [ht] at h; cases h
      | cons c cs =>
        rw [ht] at h
        simp only at h
        split at h
        · simp only [Option.some.injEq] at h
          subst h
          right
          refine ⟨?_, fun j hj => by simp [hj]⟩
          simp only [if_true, HPhase.rank, List.length_cons]; omega
        · cases h
    | locked c =>
      rw [hp] at h hset
      cases c with
      | setBehavior b => simp only [Option.some.injEq] at h; subst h; right; exact hset _ (by simp [HPhase.rank]) _ _
      | setCustomAbortFunction f => simp only [Option.some.injEq] at h; subst h; right; exact hset _ (by simp [HPhase.rank]) _ _
      | exception e => 
        simp only at h
        split at h <;> (simp only [Option.some.injEq] at h; subst h; right; exact hset _ (by simp [HPhase.rank]) s.behavior s.custom)
      | rethrow cur =>
        cases cur with
        | none => cases h
        | std e =>
          simp only at h
          split at h <;> (simp only [Option.some.injEq] at h; subst h; right; exact hset _ (by simp [HPhase.rank]) s.behavior s.custom)
        | foreign e => simp only [Option.some.injEq] at h; subst h; right; exact hset _ (by simp [HPhase.rank]) s.behavior s.custom
    | nonThrow c e =>
      rw [hp] at h hset
      simp only at h
      split at h
      · simp only [Option.some.injEq] at h; subst h; right; exact hset _ (by simp [HPhase.rank]) s.behavior s.custom
      · simp only [Option.some.injEq] at h; subst h; right; exact hset _ (by simp [HPhase.rank]) s.behavior s.custom
      · simp only [Option.some.injEq] at h; subst h; left; rfl
      · split at h
        · simp only [Option.some.injEq] at h; subst h; right; exact hset _ (by simp [HPhase.rank]) s.behavior s.custom
        · simp only [Option.some.injEq] at h; subst h; right; exact hset _ (by simp [HPhase.rank]) s.behavior s.custom
        · simp only [Option.some.injEq] at h; subst h; left; rfl
        · cases h
    | leaving c r =>
      rw [hp] at h hset
      simp only [Option.some.injEq] at h
      subst h
      right
      exact hset .outside (by simp [HPhase.rank]) s.behavior s.custom

/-! ### Where it fails -/

theorem blocked_forever {s : HState E} (hb : ∀ i, s.step i = none) : ∀ schedule, s.run schedule = s := by
  intro schedule
  induction schedule with
  | nil => rfl
  | cons i is ih => unfold HState.run; rw [hb i]; exact ih

/-- `rethrow` outside of a catch block: once a thread is in that call, no thread ever gets on, and the call never ends. -/
theorem C126_violated_rethrow_outside (programs : Nat → List (HCall E)) (b : HBehavior) (f : HCustom E) (before after : List Nat) (i : Nat)
    (hi : (((HState.init programs b f).run before).threads i).phase = .locked (.rethrow .none)) :
    ((HState.init programs b f).run before).run after = (HState.init programs b f).run before := by
  have h := hinv_run before _ (hinv_init programs b f)
  have ho := h.owner i (by rw [hi]; exact fun h => by cases h)
  refine blocked_forever (fun j => ?_) after
  unfold HState.step
  split
  · rfl
  · by_cases hj : j = i
    · rw [hj, hi]
    · have hout : (((HState.init programs b f).run before).threads j).phase = .outside := by
        by_contra hx
        have := h.owner j hx
        rw [ho] at this; cases this; exact hj rfl
      rw [hout]
      simp only
      split
      · rfl
      · rw [ho]; rfl

/-- It is reached by one thread that makes this call only. -/
example : (((HState.init (fun i => if i = 0 then [HCall.rethrow .none] else []) .throwException (HCustom.aborts : HCustom Nat)).run [0]).threads 0).phase = .locked (.rethrow .none) := rfl

/-- A custom abort function that itself uses the handler: the first exception blocks every user of the handler. -/
theorem C126_violated_reentrant_abort (programs : Nat → List (HCall E)) (f : HCustom E) (b : HBehavior) (before after : List Nat) (i : Nat) (c : HCall E) (e : E)
    (s : HState E) (hs : s = (HState.init programs b f).run before) (hi : (s.threads i).phase = .nonThrow c e) (hb : s.behavior = .printCustomAbortFunction)
    (hf : s.custom = .reenters) : s.run after = s := by
  have h := hinv_run before _ (hinv_init programs b f)
  rw [← hs] at h
  have ho := h.owner i (by rw [hi]; exact fun h => by cases h)
  refine blocked_forever (fun j => ?_) after
  unfold HState.step
  split
  · rfl
  · by_cases hj : j = i
    · rw [hj, hi]; simp only [hb, hf]
    · have hout : (s.threads j).phase = .outside := by
        by_contra hx
        have := h.owner j hx
        rw [ho] at this; cases this; exact hj rfl
      rw [hout]
      simp only
      split
      · rfl
      · rw [ho]; rfl

example : ((HState.init (fun _ => [HCall.exception 5]) .printCustomAbortFunction (HCustom.reenters : HCustom Nat)).run [1, 1, 0]).history = [] ∧
    (((HState.init (fun _ => [HCall.exception 5]) .printCustomAbortFunction (HCustom.reenters : HCustom Nat)).run [1, 1]).threads 1).phase = .nonThrow (.exception 5) 5 := ⟨rfl, rfl⟩

/-- With behavior `ignore` or `printAbort`, an exception that is not derived from `std::exception` is thrown. -/
theorem C126_violated_foreign (b : HBehavior) (f : HCustom E) (e : E) :
    ((HState.init (fun i => if i = 0 then [HCall.rethrow (.foreign e)] else []) b f).run [0, 0, 0]).history = [(0, .rethrow (.foreign e), .thrown e)] := rfl

/-! ### Examples -/

/-- Two threads throw, one changes the behavior in between. -/
example : ((HState.init (fun i => if i = 0 then [HCall.exception 1, .setBehavior .ignore] else if i = 1 then [HCall.exception 2, .exception 3] else [])
    .throwException (HCustom.aborts : HCustom Nat)).run [0, 1, 0, 0, 1, 1, 1, 0, 0, 1, 0, 1, 1, 1, 1]).history =
    [(0, .exception 1, .thrown 1), (1, .exception 2, .thrown 2), (0, .setBehavior .ignore, .returned), (1, .exception 3, .returned)] := rfl
example : SequentialHistory (.throwException, HCustom.aborts) [(0, HCall.exception 1, .thrown 1), (1, .setBehavior .printAbort, .returned), (0, .exception 2, .aborted)]
    (.printAbort, (HCustom.aborts : HCustom Nat)) := ⟨_, rfl, _, rfl, _, rfl, rfl⟩

end Verif
