/-!
Shared vocabulary of the model: 3-vectors (`std::array<T, 3>`) and C++ `for` loops as lists of the
values the loop variable takes.
-/
namespace Verif

/-- `std::array<T, 3>` with components `[0]`, `[1]`, `[2]` named `x`, `y`, `z`
(the convention of /repo/src/autopas/utils/ThreeDimensionalMapping.h:13-15). -/
structure V3 (α : Type _) where
  x : α
  y : α
  z : α
deriving DecidableEq, Repr

/-- The values of `i` in `for (size_t i = start; i < stop; i += step)`, e.g.
/repo/src/autopas/containers/cellTraversals/ColorBasedTraversal.h:163.
The real loop does not terminate for `step = 0` and `start < stop`; the model returns the empty list
there, and every theorem that uses this loop assumes or proves `0 < step`. -/
def forUp (start stop step : Nat) : List Nat :=
  if _h : start < stop ∧ 0 < step then start :: forUp (start + step) stop step else []
termination_by stop - start
decreasing_by omega

/-- The values of `i` in `for (int i = start; i <= stop; ++i)` (signed, inclusive bound), e.g.
/repo/src/autopas/containers/linkedCells/traversals/LCC08CellHandlerUtility.cpp:85. -/
def forInt (start stop : Int) : List Int :=
  (List.range (stop - start + 1).toNat).map (fun (k : Nat) => start + k)

end Verif
