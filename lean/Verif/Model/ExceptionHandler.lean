import Verif.Model.Basic
/-!
Model of /repo/src/autopas/utils/ExceptionHandler.{h,cpp}: the process wide exception handler, used by any number of threads. Each member function is split into
the steps between which other threads may run. `std::mutex` is not recursive: a thread that locks a mutex it holds waits for ever. Messages are arbitrary
values `E`; logging is not modelled.
-/
namespace Verif

/-- `ExceptionBehavior`, ExceptionHandler.h:21-38. -/
inductive HBehavior
  | ignore | throwException | printAbort | printCustomAbortFunction
deriving DecidableEq, Repr

/-- What the custom abort function does: returns, throws, ends the process (the default is `abort`, ExceptionHandler.cpp:13), or calls a function of the handler. -/
inductive HCustom (E : Type)
  | returns
  | throws (e : E)
  | aborts
  | reenters
deriving DecidableEq, Repr

/-- The exception that is being handled when `rethrow` is called: none, one derived from `std::exception`, or another. -/
inductive HCurrent (E : Type)
  | none
  | std (e : E)
  | foreign (e : E)
deriving DecidableEq, Repr

/-- Calls of the handler. The overloads for strings make an exception of the string and call the general one, ExceptionHandler.cpp:15-25. -/
inductive HCall (E : Type)
  | exception (e : E)
  | rethrow (current : HCurrent E)
  | setBehavior (b : HBehavior)
  | setCustomAbortFunction (f : HCustom E)
deriving DecidableEq, Repr

/-- How a call ends. -/
inductive HRes (E : Type)
  | returned
  | thrown (e : E)
  | aborted
deriving DecidableEq, Repr

/-- Where a thread is. -/
inductive HPhase (E : Type)
  | outside
  | locked (c : HCall E)
  | nonThrow (c : HCall E) (e : E)
  | leaving (c : HCall E) (r : HRes E)

structure HThread (E : Type) where
  todo : List (HCall E)
  phase : HPhase E

/-- The static members, ExceptionHandler.cpp:11-13, the threads, and what has happened. -/
structure HState (E : Type) where
  threads : Nat → HThread E
  owner : Option Nat
  behavior : HBehavior
  custom : HCustom E
  history : List (Nat × HCall E × HRes E)
  aborted : Bool

variable {E : Type}

def HState.setPhase (s : HState E) (i : Nat) (ph : HPhase E) : HState E :=
  { s with threads := fun j => if j = i then ⟨(s.threads i).todo, ph⟩ else s.threads j }

/-- The process ends inside a call. -/
def HState.abort (s : HState E) (i : Nat) (c : HCall E) : HState E := { s with aborted := true, history := s.history ++ [(i, c, .aborted)] }

/-- The next step of thread `i`; `none`: it has nothing to do, has to wait, or the process has ended. `exception`, ExceptionHandler.h:62-71; `rethrow`,
ExceptionHandler.cpp:27-43; `setBehavior`, `setCustomAbortFunction`, :45-53; `nonThrowException`, :55-71. -/
def HState.step (s : HState E) (i : Nat) : Option (HState E) :=
  if s.aborted then none
  else match (s.threads i).phase with
    | .outside =>
      match (s.threads i).todo with
      | [] => none
      | c :: cs =>
        if s.owner = none then some { s with owner := some i, threads := fun j => if j = i then ⟨cs, .locked c⟩ else s.threads j } else none
    | .locked c =>
      match c with
      | .setBehavior b => some { s.setPhase i (.leaving c .returned) with behavior := b }
      | .setCustomAbortFunction f => some { s.setPhase i (.leaving c .returned) with custom := f }
      | .exception e => if s.behavior = .throwException then some (s.setPhase i (.leaving c (.thrown e))) else some (s.setPhase i (.nonThrow c e))
      | .rethrow .none => none
      | .rethrow (.std e) => if s.behavior = .throwException then some (s.setPhase i (.leaving c (.thrown e))) else some (s.setPhase i (.nonThrow c e))
      | .rethrow (.foreign e) => some (s.setPhase i (.leaving c (.thrown e)))
    | .nonThrow c _ =>
      match s.behavior with
      | .ignore => some (s.setPhase i (.leaving c .returned))
      | .throwException => some (s.setPhase i (.leaving c .returned))
      | .printAbort => some (s.abort i c)
      | .printCustomAbortFunction =>
        match s.custom with
        | .returns => some (s.setPhase i (.leaving c .returned))
        | .throws e' => some (s.setPhase i (.leaving c (.thrown e')))
        | .aborts => some (s.abort i c)
        | .reenters => none
    | .leaving c r => some { s.setPhase i .outside with owner := none, history := s.history ++ [(i, c, r)] }

/-- A run: `schedule` says which thread goes next; a thread that cannot is passed over. -/
def HState.run (s : HState E) : List Nat → HState E
  | [] => s
  | i :: is => ((s.step i).getD s).run is

/-- The beginning: nobody is in the handler. -/
def HState.init (programs : Nat → List (HCall E)) (b : HBehavior) (f : HCustom E) : HState E :=
  { threads := fun i => ⟨programs i, .outside⟩, owner := none, behavior := b, custom := f, history := [], aborted := false }

end Verif
