import Verif.Model.MPIPhase
/-! Tuning phases of several ranks. -/
namespace Verif.Spec.MPIPhase

variable {C : Type} [DecidableEq C]

/-- `c` was measured in phase `p` with the result `v`. -/
def Measured (m : EvidenceMap C) (p : Nat) (c : C) (v : Int) : Prop := ∃ es, (c, es) ∈ m ∧ ∃ e ∈ es, e.tuningPhase = p ∧ e.value = v

/-- All evidence is from phases before `p`. -/
def Before (m : EvidenceMap C) (p : Nat) : Prop := ∀ c es, (c, es) ∈ m → ∀ e ∈ es, e.tuningPhase < p

/-- The ranks at the begin of phase `p` with the search space (in the order of the queue) `S`: every rank has its part of `S`. -/
structure Start (p : Nat) (S : List C) (pick : Nat → Nat) (ranks : List (MPIRank C)) : Prop where
  parts : ∀ (r : Nat) x, ranks[r]? = some x → rankQueue S ranks.length r (pick r) = .ok x.queue
  before : ∀ x ∈ ranks, Before x.evidence p
  rejected : ∀ x ∈ ranks, x.rejected = []
  settled : ∀ x ∈ ranks, x.settled = none
  fallback : ∃ x ∈ ranks, x.fallback = false

/-- Two values are neighbours in a list of numbers. -/
def Neighbours (l : List Rat) (x y : Rat) : Prop := x ∈ l ∧ y ∈ l ∧ x < y ∧ ∀ z ∈ l, ¬ (x < z ∧ z < y)

end Verif.Spec.MPIPhase
