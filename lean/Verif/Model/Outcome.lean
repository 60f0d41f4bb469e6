/-! Result of an operation that may throw or run into undefined behaviour. -/
namespace Verif

/-- `ok`: normal return; `throws`: an exception leaves the function (`ExceptionHandler::exception` in its default mode,
/repo/src/autopas/utils/ExceptionHandler.h); `ub`: the C++ code has undefined behaviour (e.g. `back()` of an empty vector);
`diverges`: the loop does not finish within the given number of iterations. -/
inductive Outcome (α : Type)
  | ok (a : α)
  | throws
  | ub
  | diverges
deriving DecidableEq, Repr

/-- Sequencing: anything but `ok` ends the computation. -/
def Outcome.bind {α β : Type} (x : Outcome α) (f : α → Outcome β) : Outcome β :=
  match x with
  | .ok a => f a
  | .throws => .throws
  | .ub => .ub
  | .diverges => .diverges

end Verif
