import Verif.Model.CellOp
import Verif.Spec.Grid
/-!
Specification vocabulary for pairwise cell traversals, independent of how a traversal enumerates pairs.
-/
namespace Verif.Spec

/-- How often the unordered pair of distinct cells `i`, `j` is processed. -/
def timesPair (ops : List CellOp) (i j : Int) : Nat :=
  ops.countP fun op => match op with
    | .pair a b _ => (a = i ∧ b = j) ∨ (a = j ∧ b = i)
    | .self _ => false

/-- How often cell `i` is processed with itself. -/
def timesSelf (ops : List CellOp) (i : Int) : Nat :=
  ops.countP fun op => match op with
    | .pair _ _ _ => false
    | .self a => a = i

/-- How often cell `i` is processed with cell `j` as its partner, in this order (relevant without Newton-3, where a
call only updates the particles of its first cell). -/
def timesOrdered (ops : List CellOp) (i j : Int) : Nat :=
  ops.countP fun op => match op with
    | .pair a b _ => a = i ∧ b = j
    | .self _ => false

/-- The cell whose particles a call without Newton-3 updates. -/
def written : CellOp → Int
  | .self i => i
  | .pair i _ _ => i

/-- The cells a call to the cell functor reads or writes. -/
def touched : CellOp → List Int
  | .self i => [i]
  | .pair i j _ => [i, j]

/-- Distance between two cell indices of one axis. -/
def axisDist (a b : Nat) : Nat := if a ≤ b then b - a else a - b

/-- `a` and `b` differ by at most the overlap in every axis. -/
def WithinOverlap (ov : V3 Nat) (a b : V3 Nat) : Prop :=
  axisDist a.x b.x ≤ ov.x ∧ axisDist a.y b.y ≤ ov.y ∧ axisDist a.z b.z ≤ ov.z

/-- A cell is a halo cell if in some axis it is one of the first or last `hw` cells. -/
def IsHalo (hw : Nat) (dims c : V3 Nat) : Prop :=
  (c.x < hw ∨ dims.x ≤ c.x + hw) ∨ (c.y < hw ∨ dims.y ≤ c.y + hw) ∨ (c.z < hw ∨ dims.z ≤ c.z + hw)

/-- Width of the empty space between two cells along one axis: `(dist-1)` cell lengths, 0 for touching cells. -/
def axisGap (len : Rat) (a b : Nat) : Rat := ((axisDist a b - 1 : Nat) : Rat) * len

/-- Squared distance between the closest points of the (closed) boxes of two cells. -/
def cellGapSq (cl : V3 Rat) (a b : V3 Nat) : Rat :=
  axisGap cl.x a.x b.x ^ 2 + axisGap cl.y a.y b.y ^ 2 + axisGap cl.z a.z b.z ^ 2

end Verif.Spec
