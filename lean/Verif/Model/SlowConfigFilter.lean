import Verif.Model.AutoTuner
import Mathlib.Data.Rat.Floor
/-!
Model of /repo/src/autopas/tuning/tuningStrategy/SlowConfigFilter.cpp.
-/
namespace Verif

section
variable {C : Type} [DecidableEq C]

/-- `_latestTuningPhase`, /repo/src/autopas/tuning/searchSpace/EvidenceCollection.cpp:17: the maximum over everything that was added. -/
def latestPhase (m : EvidenceMap C) : Nat := (m.flatMap Prod.snd).foldl (fun a e => max a e.tuningPhase) 0

/-- `static_cast<long>(x)` for a floating point number: truncation towards zero. -/
def truncToLong (x : Rat) : Int := if 0 ≤ x then ⌊x⌋ else ⌈x⌉

/-- The condition under which a configuration is put on the blacklist, SlowConfigFilter.cpp:22-28. -/
def blacklisted (m : EvidenceMap C) (phase : Nat) (threshold : Int) (c : C) : Bool :=
  match (getEvidence m c).getLast? with
  | none => false
  | some e => decide (e.tuningPhase = phase) && decide (e.value > threshold)

/-- `optimizeSuggestions`, SlowConfigFilter.cpp:11-38 (`reset` calls it, :39-43). Result: blacklist and queue. The best evidence that
was found is of the phase it was searched in, so `bestEvidence.tuningPhase` is `latestPhase`. The multiplication of doubles is exact. -/
def slowConfigFilter (range : Rat) (blacklist queue : List C) (m : EvidenceMap C) : Outcome (List C × List C) :=
  if m.isEmpty then .ok (blacklist, queue)
  else
    let phase := latestPhase m
    match optimalLoop phase m none longMax with
    | (none, _) => .throws
    | (some _, best) =>
      let threshold := truncToLong (best * range)
      let blacklist := blacklist ++ queue.filter (blacklisted m phase threshold)
      .ok (blacklist, queue.filter fun c => !decide (c ∈ blacklist))

/-- A sequence of calls with their queues and evidence, starting with blacklist `b`. The resulting queues. -/
def slowFilterCalls (range : Rat) : List C → List (List C × EvidenceMap C) → Outcome (List C × List (List C))
  | b, [] => .ok (b, [])
  | b, (q, m) :: calls =>
    (slowConfigFilter range b q m).bind fun r => (slowFilterCalls range r.1 calls).bind fun rs => .ok (rs.1, r.2 :: rs.2)

end

end Verif
