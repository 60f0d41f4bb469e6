import Verif.Model.Basic
/-!
Model of `balanceVectors`, /repo/src/autopas/utils/ArrayUtils.h:217-271.

Vectors are lists. `numElem` is accumulated in an `int` in the code (:226, the initial value is `0`), so the model is only
faithful for fewer than 2^31 elements. Moved-from elements are always erased right after the move, so moving is modelled as
cutting the list.
-/
namespace Verif

/-- `thisTargetSize`, ArrayUtils.h:240. -/
def balTarget (target rem i : Nat) : Nat := if i < rem then target + 1 else target

/-- Body of the inner loop without the final `break`, ArrayUtils.h:239-263: treatment of the `i`-th vector `v`. Result: the
new vector, the new `tmpStorage`, the new `firstTooFew`. -/
def balFit {α : Type} (t i : Nat) (v tmp : List α) (ftf : Nat) : List α × List α × Nat :=
  if v.length > t then
    (v.take t, tmp ++ v.drop t, if ftf = i then ftf + 1 else ftf)
  else if v.length < t then
    let start := tmp.length - (t - v.length)
    (v ++ tmp.drop start, tmp.take start, ftf)
  else (v, tmp, if ftf = i then ftf + 1 else ftf)

/-- The inner loop from index `i` on, ArrayUtils.h:238-268; the list holds the vectors with index ≥ `i`. -/
def balScan {α : Type} (target rem pass : Nat) : Nat → List (List α) → List α → Nat → List (List α) × List α × Nat
  | _, [], tmp, ftf => ([], tmp, ftf)
  | i, v :: vs, tmp, ftf =>
    let s := balFit (balTarget target rem i) i v tmp ftf
    if pass > 0 ∧ s.2.1.length = 0 then (s.1 :: vs, s.2.1, s.2.2)
    else
      let r := balScan target rem pass (i + 1) vs s.2.1 s.2.2
      (s.1 :: r.1, r.2.1, r.2.2)

/-- One execution of the outer loop body: scan starting at `firstTooFew`. -/
def balPass {α : Type} (target rem pass : Nat) (vs : List (List α)) (tmp : List α) (ftf : Nat) :
    List (List α) × List α × Nat :=
  let r := balScan target rem pass ftf (vs.drop ftf) tmp ftf
  (vs.take ftf ++ r.1, r.2.1, r.2.2)

/-- The outer loop, ArrayUtils.h:236-269. `none`: not finished after `fuel` passes. -/
def balLoop {α : Type} (target rem : Nat) : Nat → Nat → List (List α) → List α → Nat → Option (List (List α))
  | 0, pass, vs, tmp, _ => if pass = 0 ∨ tmp.length ≠ 0 then none else some vs
  | fuel + 1, pass, vs, tmp, ftf =>
    if pass = 0 ∨ tmp.length ≠ 0 then
      let r := balPass target rem pass vs tmp ftf
      balLoop target rem fuel (pass + 1) r.1 r.2.1 r.2.2
    else some vs

/-- `balanceVectors` with at most `fuel` passes. -/
def balanceVectorsFuel {α : Type} (fuel : Nat) (vs : List (List α)) : Option (List (List α)) :=
  if vs.length = 0 then some vs
  else
    let numElem := vs.flatten.length
    balLoop (numElem / vs.length) (numElem % vs.length) fuel 0 vs [] 0

/-- `balanceVectors`; two passes always suffice (`C28_terminates`). -/
def balanceVectors {α : Type} (vs : List (List α)) : List (List α) := (balanceVectorsFuel 2 vs).getD vs

end Verif
