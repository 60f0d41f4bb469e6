import Verif.Model.RuleVM
/-!
The meaning of rule programs, by structural recursion on the syntax tree, without machine, stack or addresses.
-/
namespace Verif.Spec

/-- The meaning of an operator; `none` is a type error. `and` and `or` look at the right operand first and do not check the left one if the
right one decides the result. -/
def opMeaning : BinOp → Cell → Cell → Option Cell
  | .less, l, r => (cellLess l r).map .bool
  | .greater, l, r => (cellLess r l).map .bool
  | .and, l, r => match r, l with
    | .bool false, _ => some (.bool false)
    | .bool true, .bool b => some (.bool b)
    | _, _ => none
  | .or, l, r => match r, l with
    | .bool true, _ => some (.bool true)
    | .bool false, .bool b => some (.bool b)
    | _, _ => none
  | .arith op, l, r => op.apply l r

/-- The value of an expression, given the values of the variables; `none` is a type error. -/
def eval (ρ : String → Cell) : RExpr → Option Cell
  | .lit c => some c
  | .var x => some (ρ x)
  | .not e => match eval ρ e with
    | some (.bool b) => some (.bool !b)
    | _ => none
  | .bin op l r => match eval ρ l, eval ρ r with
    | some a, some b => opMeaning op a b
    | _, _ => none

/-- The values of the variables after assigning `v` to `x`. -/
def assign (ρ : String → Cell) (x : String) (v : Cell) : String → Cell := fun y => if y = x then v else ρ y

/-- The values of the variables after a program and the configuration orders it emits; `none` is a type error. -/
def exec {O : Type} : Stmts O → (String → Cell) → Option ((String → Cell) × List O)
  | .nil, ρ => some (ρ, [])
  | .define x e rest, ρ => match eval ρ e with
    | some v => exec rest (assign ρ x v)
    | none => none
  | .defineList rest, ρ => exec rest ρ
  | .ite cond body rest, ρ => match eval ρ cond with
    | some (.bool true) => match exec body ρ with
      | some (ρ', os) => (exec rest ρ').map fun r => (r.1, os ++ r.2)
      | none => none
    | some (.bool false) => exec rest ρ
    | _ => none
  | .order o rest, ρ => (exec rest ρ).map fun r => (r.1, o :: r.2)

/-- The values of the variables before the program runs: the live information; a variable that is never assigned is `false`. -/
def initialValues (liveInfo : List (String × Cell)) : String → Cell := fun x => (liveInfo.lookup x).getD (.bool false)

/-- All variables of the expression are among the names. -/
def exprScoped (names : List String) : RExpr → Prop
  | .lit _ => True
  | .var x => x ∈ names
  | .not e => exprScoped names e
  | .bin _ l r => exprScoped names l ∧ exprScoped names r

/-- The names defined anywhere in the program. -/
def defined {O : Type} : Stmts O → List String
  | .nil => []
  | .define x _ rest => x :: defined rest
  | .defineList rest => defined rest
  | .ite _ body rest => defined body ++ defined rest
  | .order _ rest => defined rest

/-- Every variable is a name known at the start or defined earlier in the text (what the parser ensures, RuleBasedProgramParser.cpp:151-159). -/
def Scoped {O : Type} : List String → Stmts O → Prop
  | _, .nil => True
  | names, .define x e rest => exprScoped names e ∧ Scoped (x :: names) rest
  | names, .defineList rest => Scoped names rest
  | names, .ite cond body rest => exprScoped names cond ∧ Scoped names body ∧ Scoped (defined body ++ names) rest
  | names, .order _ rest => Scoped names rest

/-- The types that matter. -/
inductive RTy
  | bool
  | num
  | opt (kind : Fin 5)
deriving DecidableEq

/-- The type of a value. -/
def tyOf : Cell → RTy
  | .bool _ => .bool
  | .double _ => .num
  | .size _ => .num
  | .opt k _ => .opt k

/-- Typing of expressions: `Γ` is the type of each variable, `assigned` the variables that certainly have a value. -/
inductive HasTy (Γ : String → RTy) (assigned : List String) : RExpr → RTy → Prop
  | lit (c : Cell) : HasTy Γ assigned (.lit c) (tyOf c)
  | var {x : String} (h : x ∈ assigned) : HasTy Γ assigned (.var x) (Γ x)
  | not {e : RExpr} (h : HasTy Γ assigned e .bool) : HasTy Γ assigned (.not e) .bool
  | cmp {op : BinOp} {l r : RExpr} {t : RTy} (hop : op = .less ∨ op = .greater) (hl : HasTy Γ assigned l t) (hr : HasTy Γ assigned r t) :
    HasTy Γ assigned (.bin op l r) .bool
  | logic {op : BinOp} {l r : RExpr} (hop : op = .and ∨ op = .or) (hl : HasTy Γ assigned l .bool) (hr : HasTy Γ assigned r .bool) :
    HasTy Γ assigned (.bin op l r) .bool
  | arith {op : ArithOp} {l r : RExpr} (hl : HasTy Γ assigned l .num) (hr : HasTy Γ assigned r .num) :
    HasTy Γ assigned (.bin (.arith op) l r) .num

/-- Typing of programs. What an `if` defines is not certain to have a value afterwards. -/
def WellTyped {O : Type} (Γ : String → RTy) : List String → Stmts O → Prop
  | _, .nil => True
  | assigned, .define x e rest => HasTy Γ assigned e (Γ x) ∧ WellTyped Γ (x :: assigned) rest
  | assigned, .defineList rest => WellTyped Γ assigned rest
  | assigned, .ite cond body rest => HasTy Γ assigned cond .bool ∧ WellTyped Γ assigned body ∧ WellTyped Γ assigned rest
  | assigned, .order _ rest => WellTyped Γ assigned rest

end Verif.Spec
