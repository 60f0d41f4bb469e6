import Verif.Model.SoA
/-! Specification for C131: a structure of arrays as a vector of records. -/
namespace Verif

variable {V : Type}

/-- The arrays hold these records: array `a` consists of the attributes `a` of the records, in order. -/
def HoldsRows (s : SoAArrays V) (rows : List (AttrParticle V)) : Prop := ∀ a < s.width, s.col a = rows.map fun r => r a

/-- Arrays with these records. -/
def SoAArrays.ofRows (width : Nat) (rows : List (AttrParticle V)) : SoAArrays V := ⟨width, fun a => rows.map fun r => r a⟩

/-- What a user does with the whole structure. Appended structures are given by their records. -/
inductive SoAOp (V : Type)
  | resize (n : Nat)
  | write (i : Nat) (values : List (Nat × V))
  | append (rows : List (AttrParticle V))
  | appendSome (attrs : List Nat) (rows : List (AttrParticle V))
  | appendView (rows : List (AttrParticle V)) (start stop : Nat)
  | clear
  | swap (i j : Nat)
  | popBack

/-- Attributes named by the operation exist. -/
def SoAOp.Valid (width : Nat) : SoAOp V → Prop
  | .write _ values => ∀ av ∈ values, av.1 < width
  | .appendSome attrs _ => ∀ a ∈ attrs, a < width
  | _ => True

/-- The operation of the code. -/
def SoAOp.run [Zero V] (s : SoAArrays V) : SoAOp V → Outcome (SoAArrays V)
  | .resize n => .ok (s.resize n)
  | .write i values => s.writeMultiple i values
  | .append rows => .ok (s.append (.ofRows s.width rows))
  | .appendSome attrs rows => .ok (s.appendSome attrs (.ofRows s.width rows))
  | .appendView rows start stop => s.appendView (.ofRows s.width rows) start stop
  | .clear => .ok s.clear
  | .swap i j => s.swap i j
  | .popBack => s.popBack

/-- Values written to one record. -/
def setAttrs (r : AttrParticle V) (values : List (Nat × V)) : AttrParticle V := values.foldl (fun r av b => if b = av.1 then av.2 else r b) r

/-- What the operation means for a vector of records. -/
def SoAOp.onRows [Zero V] (rows : List (AttrParticle V)) : SoAOp V → Outcome (List (AttrParticle V))
  | .resize n => .ok (rows.take n ++ List.replicate (n - rows.length) (fun _ => 0 : AttrParticle V))
  | .write i values =>
    if i < rows.length then .ok (rows.modify i fun r => setAttrs r values) else if values.isEmpty then .ok rows else .throws
  | .append more => .ok (rows ++ more)
  | .appendSome attrs more => .ok (rows ++ more.map fun r a => if a ∈ attrs then r a else 0)
  | .appendView more start stop => if start ≤ stop ∧ stop ≤ more.length then .ok (rows ++ (more.drop start).take (stop - start)) else .throws
  | .clear => .ok []
  | .swap i j =>
    match rows[i]?, rows[j]? with
    | some x, some y => .ok ((rows.set i y).set j x)
    | _, _ => .ub
  | .popBack => if rows.isEmpty then .ub else .ok rows.dropLast

/-- Histories; anything but a normal return ends them. -/
def runSoAOps [Zero V] (s : SoAArrays V) : List (SoAOp V) → Outcome (SoAArrays V)
  | [] => .ok s
  | op :: ops => (op.run s).bind fun s' => runSoAOps s' ops

/-- Histories of vectors of records. -/
def runRowOps [Zero V] (rows : List (AttrParticle V)) : List (SoAOp V) → Outcome (List (AttrParticle V))
  | [] => .ok rows
  | op :: ops => (op.onRows rows).bind fun rows' => runRowOps rows' ops

/-- Both end in the same way, and if they return the arrays hold the records. -/
def SameOutcome (width : Nat) : Outcome (SoAArrays V) → Outcome (List (AttrParticle V)) → Prop
  | .ok s, .ok rows => s.width = width ∧ HoldsRows s rows
  | .throws, .throws => True
  | .ub, .ub => True
  | .diverges, .diverges => True
  | _, _ => False

end Verif
