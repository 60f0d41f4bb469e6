import Verif.Model.Basic
/-!
Ownership states, iterator behaviours and the half-open box test.

`IteratorBehavior` is a bit field; the model uses the natural number.
-/
namespace Verif

/-- `OwnershipState`, /repo/src/autopas/particles/OwnershipState.h:19-28. -/
inductive Ownership
  | dummy | owned | halo
deriving DecidableEq, Repr

/-- The integer values of the enum, OwnershipState.h:19-28. -/
def Ownership.value : Ownership → Nat
  | .dummy => 0
  | .owned => 1
  | .halo => 2

/-- `IteratorBehavior::Value`, /repo/src/autopas/options/IteratorBehavior.h:30-55. -/
def ibOwned : Nat := 1
def ibHalo : Nat := 2
def ibOwnedOrHalo : Nat := 3
def ibDummy : Nat := 4
def ibOwnedOrHaloOrDummy : Nat := 7
def ibForceSequential : Nat := 8

/-- The ownership part of `particleFulfillsIteratorRequirements`, used by all iterators:
/repo/src/autopas/iterators/ContainerIterator.h:68-77. -/
def fulfillsOwnership (behavior : Nat) (s : Ownership) : Bool :=
  if behavior &&& ibOwnedOrHaloOrDummy = ibOwnedOrHaloOrDummy ∨ (behavior &&& ibDummy ≠ 0 ∧ s = .dummy) then true
  else decide (s.value &&& behavior ≠ 0)

/-- `IteratorBehavior::contains`, used by `forEach` and `reduce`: IteratorBehavior.h:122-140. `none` is the exception of the
default case. -/
def ibContains (behavior : Nat) (s : Ownership) : Option Bool :=
  if behavior = ibOwnedOrHaloOrDummy then some true
  else if behavior = ibOwnedOrHalo then some (decide (s ≠ .dummy))
  else if behavior = ibHalo then some (decide (s = .halo))
  else if behavior = ibOwned then some (decide (s = .owned))
  else if behavior = ibDummy then some (decide (s = .dummy))
  else none

/-- `inBox`, /repo/src/autopas/utils/inBox.h:25-36. -/
def inBoxB (p lo hi : V3 Rat) : Bool :=
  decide (lo.x ≤ p.x) && decide (p.x < hi.x) && (decide (lo.y ≤ p.y) && decide (p.y < hi.y)) &&
    (decide (lo.z ≤ p.z) && decide (p.z < hi.z))

end Verif
