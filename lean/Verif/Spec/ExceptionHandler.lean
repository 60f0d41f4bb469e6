import Verif.Model.ExceptionHandler
/-!
The handler as the documentation describes it, used by one caller at a time: the settings, and what each call does.
-/
namespace Verif.Spec
variable {E : Type}

/-- Settings: behavior and custom abort function. -/
abbrev HSettings (E : Type) := HBehavior × HCustom E

/-- How a call that reports `e` ends; `none`: never. -/
def reportResult (st : HSettings E) (e : E) : Option (HRes E) :=
  match st.1 with
  | .ignore => some .returned
  | .throwException => some (.thrown e)
  | .printAbort => some .aborted
  | .printCustomAbortFunction =>
    match st.2 with
    | .returns => some .returned
    | .throws e' => some (.thrown e')
    | .aborts => some .aborted
    | .reenters => none

/-- One call: how it ends, and the settings afterwards. Exceptions of foreign types are passed on. -/
def handlerCall (st : HSettings E) : HCall E → Option (HRes E × HSettings E)
  | .exception e => (reportResult st e).map fun r => (r, st)
  | .rethrow (.std e) => (reportResult st e).map fun r => (r, st)
  | .rethrow (.foreign e) => some (.thrown e, st)
  | .rethrow .none => none
  | .setBehavior b => some (.returned, (b, st.2))
  | .setCustomAbortFunction f => some (.returned, (st.1, f))

/-- `h` is what calls made one after the other, starting with settings `st`, lead to; settings afterwards. -/
def SequentialHistory : HSettings E → List (Nat × HCall E × HRes E) → HSettings E → Prop
  | st, [], st' => st' = st
  | st, (_, c, r) :: h, st' => ∃ st1, handlerCall st c = some (r, st1) ∧ SequentialHistory st1 h st'

end Verif.Spec
