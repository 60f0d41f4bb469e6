import Verif.Model.Outcome
import Mathlib.Algebra.Order.Ring.Rat
/-!
Model of the rule language of rule based tuning: /repo/src/autopas/tuning/tuningStrategy/ruleBasedTuning/RuleVM.h (virtual machine) and
RuleBasedProgramTree.{h,cpp} (syntax tree and code generation). Parsing (ANTLR) is not modelled: programs are syntax trees. `double` is exact.
-/
namespace Verif

/-- `RuleVM::MemoryCell`, RuleVM.h:23-24: a variant of bool, double, size_t and the five option types (`opt kind value`). -/
inductive Cell
  | bool (b : Bool)
  | double (q : Rat)
  | size (n : Nat)
  | opt (kind : Fin 5) (value : Nat)
deriving DecidableEq, Repr

/-- `RuleVM::CMD` with the payload of the instruction, RuleVM.h:29-129. -/
inductive Instr
  | loadC (c : Cell)
  | loadA (a : Nat)
  | storeA (a : Nat)
  | reserve (n : Nat)
  | less
  | greater
  | equal
  | jumpZero (target : Nat)
  | outputC (i : Nat)
  | condOutputC (i : Nat)
  | halt
  | and
  | or
  | pop
  | mul
  | div
  | add
  | sub
  | not
deriving DecidableEq, Repr

/-- Why the machine fails: an operand of the wrong type (`std::get` of the wrong alternative, or the `runtime_error`s of `compare` and `computeBinary`), or an access
out of bounds (`at` of the stack or of the instructions). -/
inductive VMError
  | type
  | range
deriving DecidableEq, Repr

/-- The state of `RuleVM`, RuleVM.h:301-322. `_stackPointer` is an integer: -1 stands for the wrapped value when the stack is empty. -/
structure VMState where
  pc : Nat
  sp : Int
  halted : Bool
  stack : List Cell
  removed : List Nat
deriving Repr

/-- The value as a number, if it is one. -/
def Cell.num : Cell → Option Rat
  | .double q => some q
  | .size n => some n
  | _ => none

/-- `compare` with `std::less`, RuleVM.h:270-285: alternatives of the same type are compared with their own `<`, numbers of different types after conversion. -/
def cellLess : Cell → Cell → Option Bool
  | .bool a, .bool b => some (!a && b)
  | .opt k a, .opt k' b => if k = k' then some (decide (a < b)) else none
  | l, r => match l.num, r.num with
    | some x, some y => some (decide (x < y))
    | _, _ => none

/-- `compare` with `std::equal_to`. -/
def cellEqual : Cell → Cell → Option Bool
  | .bool a, .bool b => some (a == b)
  | .opt k a, .opt k' b => if k = k' then some (decide (a = b)) else none
  | l, r => match l.num, r.num with
    | some x, some y => some (decide (x = y))
    | _, _ => none

/-- The largest finite `double`. -/
def maxDouble : Rat := 2 ^ 1024 - 2 ^ 971

/-- The arithmetic operators. -/
inductive ArithOp
  | mul
  | div
  | add
  | sub
deriving DecidableEq, Repr

/-- The lambdas on `size_t`, RuleVM.h:231-257, modulo 2^64. -/
def ArithOp.onSize : ArithOp → Nat → Nat → Nat
  | .mul, l, r => l * r % 2 ^ 64
  | .div, l, r => if r = 0 then 2 ^ 64 - 1 else l / r
  | .add, l, r => (l + r) % 2 ^ 64
  | .sub, l, r => (l + (2 ^ 64 - r % 2 ^ 64)) % 2 ^ 64

/-- The lambdas when at least one operand is a `double`, RuleVM.h:231-257. -/
def ArithOp.onDouble : ArithOp → Rat → Rat → Rat
  | .mul, l, r => l * r
  | .div, l, r => if r = 0 then maxDouble else l / r
  | .add, l, r => l + r
  | .sub, l, r => l - r

/-- `computeBinary`, RuleVM.h:287-299. -/
def ArithOp.apply (op : ArithOp) : Cell → Cell → Option Cell
  | .size l, .size r => some (.size (op.onSize l r))
  | l, r => match l.num, r.num with
    | some x, some y => some (.double (op.onDouble x y))
    | _, _ => none

/-- `_stack.at(i)` as a value. -/
def stackAt (s : List Cell) (i : Int) : Except VMError Cell :=
  if 0 ≤ i then match s[i.toNat]? with
    | some c => .ok c
    | none => .error .range
  else .error .range

/-- `_stack.at(i) = c`. -/
def stackSet (s : List Cell) (i : Int) (c : Cell) : Except VMError (List Cell) :=
  if 0 ≤ i ∧ i < s.length then .ok (s.set i.toNat c) else .error .range

/-- `std::get<bool>`. -/
def getBool : Cell → Except VMError Bool
  | .bool b => .ok b
  | _ => .error .type

/-- A result of `compare` or `computeBinary`: no value means an exception. -/
def orTypeError {α : Type} : Option α → Except VMError α
  | some x => .ok x
  | none => .error .type

/-- An instruction that replaces the top two cells by a value computed from them (`LESS` etc., RuleVM.h:182-199 and 231-257). -/
def binaryStep (st : VMState) (f : Cell → Cell → Option Cell) : Except VMError VMState := do
  let l ← stackAt st.stack (st.sp - 1)
  let r ← stackAt st.stack st.sp
  let res ← orTypeError (f l r)
  let stack ← stackSet st.stack (st.sp - 1) res
  pure { st with sp := st.sp - 1, stack := stack }

/-- `executeInstruction`, RuleVM.h:168-262. The program counter is already incremented. -/
def executeInstruction (st : VMState) : Instr → Except VMError VMState
  | .loadC c => do
    let stack ← stackSet st.stack (st.sp + 1) c
    pure { st with sp := st.sp + 1, stack := stack }
  | .loadA a => do
    let c ← stackAt st.stack a
    let stack ← stackSet st.stack (st.sp + 1) c
    pure { st with sp := st.sp + 1, stack := stack }
  | .storeA a => do
    let c ← stackAt st.stack st.sp
    let stack ← stackSet st.stack a c
    pure { st with sp := st.sp - 1, stack := stack }
  | .reserve n => pure { st with sp := st.sp + n }
  | .less => binaryStep st fun l r => (cellLess l r).map .bool
  | .greater => binaryStep st fun l r => (cellLess r l).map .bool
  | .equal => binaryStep st fun l r => (cellEqual l r).map .bool
  | .jumpZero target => do
    let c ← stackAt st.stack st.sp
    let b ← getBool c
    pure { st with sp := st.sp - 1, pc := if b then st.pc else target }
  | .outputC i => pure { st with removed := st.removed ++ [i] }
  | .condOutputC i => do
    let c ← stackAt st.stack st.sp
    let b ← getBool c
    pure { st with removed := if b then st.removed ++ [i] else st.removed }
  | .halt => pure { st with halted := true }
  | .and => do
    let r ← stackAt st.stack st.sp
    let b ← getBool r
    let res ← if b then (do let l ← stackAt st.stack (st.sp - 1); getBool l) else pure false
    let stack ← stackSet st.stack (st.sp - 1) (.bool res)
    pure { st with sp := st.sp - 1, stack := stack }
  | .or => do
    let r ← stackAt st.stack st.sp
    let b ← getBool r
    let res ← if b then pure true else (do let l ← stackAt st.stack (st.sp - 1); getBool l)
    let stack ← stackSet st.stack (st.sp - 1) (.bool res)
    pure { st with sp := st.sp - 1, stack := stack }
  | .pop => pure { st with sp := st.sp - 1 }
  | .mul => binaryStep st ArithOp.mul.apply
  | .div => binaryStep st ArithOp.div.apply
  | .add => binaryStep st ArithOp.add.apply
  | .sub => binaryStep st ArithOp.sub.apply
  | .not => do
    let c ← stackAt st.stack st.sp
    let b ← getBool c
    let stack ← stackSet st.stack st.sp (.bool !b)
    pure { st with stack := stack }

/-- What running the machine leads to. -/
inductive VMResult
  | done (removed : List Nat)
  | failed (e : VMError)
  | outOfFuel
deriving DecidableEq, Repr

/-- The loop of `execute`, RuleVM.h:160-164, for at most the given number of rounds. -/
def vmRun (program : List Instr) : Nat → VMState → VMResult
  | 0, st => if st.halted then .done st.removed else .outOfFuel
  | n + 1, st =>
    if st.halted then .done st.removed
    else match program[st.pc]? with
      | none => .failed .range
      | some instr => match executeInstruction { st with pc := st.pc + 1 } instr with
        | .error e => .failed e
        | .ok st' => vmRun program n st'

/-- `RuleVM::Program`, RuleVM.h:135-144. -/
structure VMProgram where
  instructions : List Instr
  neededStackSize : Nat
deriving Repr

/-- `execute`, RuleVM.h:152-165: a new cell of the resized stack is the default of the variant, `false`. -/
def vmExecute (p : VMProgram) (initialStack : List Cell) (fuel : Nat) : VMResult :=
  vmRun p.instructions fuel
    { pc := 0, sp := (initialStack.length : Int) - 1, halted := false, removed := [],
      stack := initialStack ++ List.replicate p.neededStackSize (.bool false) }

/-- `BinaryOperator::Operator`, RuleBasedProgramTree.h:462. -/
inductive BinOp
  | less
  | greater
  | and
  | or
  | arith (op : ArithOp)
deriving DecidableEq, Repr

/-- Expressions: `Literal`, `Variable`, `UnaryOperator`, `BinaryOperator`, RuleBasedProgramTree.h:358-488. A variable is its name: that is all code generation uses
of the definition it refers to. -/
inductive RExpr
  | lit (c : Cell)
  | var (x : String)
  | not (e : RExpr)
  | bin (op : BinOp) (l r : RExpr)
deriving DecidableEq, Repr

/-- Sequences of statements: `Define`, `DefineList`, `If`, `ConfigurationOrder`, RuleBasedProgramTree.h:193-248, 385-403, 493-539. `O` is the contents
of a configuration order. -/
inductive Stmts (O : Type)
  | nil
  | define (x : String) (e : RExpr) (rest : Stmts O)
  | defineList (rest : Stmts O)
  | ite (cond : RExpr) (body rest : Stmts O)
  | order (o : O) (rest : Stmts O)
deriving DecidableEq, Repr

/-- `CodeGenerationContext`, RuleBasedProgramTree.h:345-352, RuleBasedProgramTree.cpp:112-165. `addressEnvironment` maps the i-th name inserted to i, so it is the list of
names in the order of insertion. -/
structure GenContext (O : Type) where
  current : Nat
  maxNeeded : Nat
  names : List String
  initialNumVariables : Nat
  orders : List O
deriving Repr

variable {O : Type}

/-- `allocateStack(1)`, RuleBasedProgramTree.cpp:139-142. -/
def GenContext.allocate (c : GenContext O) : GenContext O :=
  { c with current := c.current + 1, maxNeeded := max c.maxNeeded (c.current + 1) }

/-- `freeStack(1)`, RuleBasedProgramTree.cpp:144. -/
def GenContext.free (c : GenContext O) : GenContext O := { c with current := c.current - 1 }

/-- `addLocalVariable`, RuleBasedProgramTree.cpp:121-123: `insert` changes nothing if the name is known. -/
def GenContext.addLocal (c : GenContext O) (x : String) : GenContext O :=
  if x ∈ c.names then c else { c with names := c.names ++ [x] }

/-- `addGlobalVariable`, RuleBasedProgramTree.cpp:125-128. -/
def GenContext.addGlobal (c : GenContext O) (x : String) : GenContext O :=
  GenContext.addLocal { c with initialNumVariables := c.initialNumVariables + 1 } x

/-- The instruction of a binary operator, `opMap`, RuleBasedProgramTree.cpp:31-33. -/
def BinOp.instr : BinOp → Instr
  | .less => .less
  | .greater => .greater
  | .and => .and
  | .or => .or
  | .arith .mul => .mul
  | .arith .div => .div
  | .arith .add => .add
  | .arith .sub => .sub

/-- `generateCode` of expressions, RuleBasedProgramTree.cpp:11-38, 171-174. An unknown name is an exception (`at`). -/
def genExpr : RExpr → GenContext O → List Instr → Outcome (GenContext O × List Instr)
  | .lit c, ctx, is => .ok (ctx.allocate, is ++ [.loadC c])
  | .var x, ctx, is => if x ∈ ctx.names then .ok (ctx.allocate, is ++ [.loadA (ctx.names.idxOf x)]) else .throws
  | .not e, ctx, is => (genExpr e ctx is).bind fun r => .ok (r.1, r.2 ++ [.not])
  | .bin op l r, ctx, is => (genExpr l ctx is).bind fun a => (genExpr r a.1 a.2).bind fun b => .ok (b.1.free, b.2 ++ [op.instr])

/-- `generateCode` of statements, RuleBasedProgramTree.cpp:55-58, 179-181, 188-194, 199-210. The payload of the jump is patched after the consequences are generated. -/
def genStmts : Stmts O → GenContext O → List Instr → Outcome (GenContext O × List Instr)
  | .nil, ctx, is => .ok (ctx, is)
  | .define x e rest, ctx, is => (genExpr e ctx is).bind fun a =>
    let ctx' := a.1.addLocal x
    genStmts rest ctx'.free (a.2 ++ [.storeA (ctx'.names.idxOf x)])
  | .defineList rest, ctx, is => genStmts rest ctx is
  | .ite cond body rest, ctx, is => (genExpr cond ctx is).bind fun a =>
    (genStmts body a.1.free (a.2 ++ [.jumpZero 0])).bind fun b =>
      genStmts rest b.1 (b.2.set a.2.length (.jumpZero b.2.length))
  | .order o rest, ctx, is => genStmts rest { ctx with orders := ctx.orders ++ [o] } (is ++ [.outputC ctx.orders.length])

/-- The context the parser hands over: `RuleBasedProgramParser::parse`, RuleBasedProgramParser.cpp:307-311, with the names of the live information. -/
def initialContext (globals : List String) : GenContext O :=
  globals.foldl GenContext.addGlobal { current := 0, maxNeeded := 0, names := [], initialNumVariables := 0, orders := [] }

/-- `RuleBasedProgramTree::generateCode`, RuleBasedProgramTree.cpp:212-223. -/
def generateCode (p : Stmts O) (ctx : GenContext O) : Outcome (GenContext O × VMProgram) :=
  (genStmts p ctx [.reserve 0]).bind fun r =>
    let locals := r.1.names.length - r.1.initialNumVariables
    .ok (r.1, { instructions := r.2.set 0 (.reserve locals) ++ [.halt], neededStackSize := locals + r.1.maxNeeded })

/-- From rules and live information to the applicable configuration orders, `applyRules`, RuleBasedTuning.cpp:164-191. `none`: an index of an order is out of range. -/
def applicableOrders (p : Stmts O) (liveInfo : List (String × Cell)) (fuel : Nat) : Outcome (VMResult × Option (List O)) :=
  (generateCode p (initialContext (liveInfo.map Prod.fst))).bind fun r =>
    let res := vmExecute r.2 (liveInfo.map Prod.snd) fuel
    .ok (res, match res with
      | .done idx => idx.mapM fun i => r.1.orders[i]?
      | _ => none)

end Verif
