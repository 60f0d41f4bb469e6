import Verif.Lemmas.LogicControl
/-!
# C23 — Neighbour lists are never used for more than rebuildFrequency iterations

`UsedWithin n trace` (Verif/Spec/ListUse.lean): every use of neighbour lists is preceded by a build with at most `n` calls of
`updateContainer` in between.
-/
namespace Verif
open Spec

variable {σ C : Type} [DecidableEq C]

/-- For every history of `updateContainer`, `computeInteractions` (any functor, any measured times, any rejected
configurations), `resizeBox`, `deleteAllParticles` and `forceRetune` calls, with any tuners and tuning strategies. -/
theorem C23_lists_rebuilt_in_time (cfg : CtlCfg σ C) (hf : 0 < cfg.rebuildFrequency) (fuel : Nat)
    (tuners : IType → Option (Tuner σ C)) (ctype cinfo : Nat) (history : List (Action C)) (s : Ctl σ C)
    (trace : List Event) (hrun : (Ctl.init tuners ctype cinfo).run cfg fuel history = .ok (s, trace)) :
    UsedWithin cfg.rebuildFrequency trace := by
  have h0 : UseInv cfg.rebuildFrequency (Ctl.init tuners ctype cinfo) [] :=
    ⟨by intro b g a h; simp at h, by simp [Ctl.init], by intro h; simp [Ctl.init] at h⟩
  have := (useInv_run hf h0 hrun).used
  simpa using this

/-- Container 0 has one configuration; lists are rebuilt every 3 iterations. -/
def c23Cfg : CtlCfg Unit Nat :=
  { tuner := fun _ => { tuningInterval := 100, maxSamples := 1, rebuildFrequency := 3, selector := .fastestAbs,
                        strategies := [], smooth := none }
    rebuildFrequency := 3, ctype := id, cinfo := fun _ => 0 }

/-- A tuner with the single configuration 0. -/
def c23Tuner : Tuner Unit Nat :=
  { iteration := 0, tuningPhase := 0, iterationBaseline := 0, isTuning := false, forceRetune := false, samplesNot := [0],
    samplesReb := [], evidence := [], searchSpace := [0], queue := [0], strat := () }

/-- A tuner that never asks for a rebuild, e.g. with a much larger rebuild rhythm. -/
def c23Slow : CtlCfg Unit Nat :=
  { c23Cfg with tuner := fun _ => { c23Cfg.tuner .pairwise with rebuildFrequency := 1000 } }

/-- One simulation step. -/
def c23Step : List (Action Nat) := [.update, .compute .pairwise true (fun _ => .applicable) 5]

/-- Events of a history. -/
def c23Trace (cfg : CtlCfg Unit Nat) (h : List (Action Nat)) : List Event :=
  match (Ctl.init (fun ty => if ty = .pairwise then some c23Tuner else none) 0 0).run cfg 10 h with
  | .ok r => r.2
  | _ => []

-- in the normal rhythm lists are used 3 times
example : c23Trace c23Cfg ((List.replicate 5 c23Step).flatten) =
    [.update, .built 0, .used 0, .update, .used 0, .update, .used 0, .update, .built 0, .used 0, .update, .used 0] := by
  decide
-- the bound is attained: the very first lists can be used after 3 further updates
example : c23Trace c23Slow ((List.replicate 5 c23Step).flatten) =
    [.update, .built 0, .used 0, .update, .used 0, .update, .used 0, .update, .used 0, .update, .built 0, .used 0] := by
  decide

end Verif
