import Verif.Model.CellFunctor
import Verif.Spec.Geometry
/-! Counting functor calls. -/
namespace Verif.Spec

variable {P : Type} [DecidableEq P]

/-- How often the functor is called for the two particles `a` and `b`, in any order. -/
def timesUnordered (calls : List (PairCall P)) (a b : P) : Nat :=
  calls.countP fun c => (c.p = a ∧ c.q = b) ∨ (c.p = b ∧ c.q = a)

/-- How often the functor is called with `a` as first and `b` as second particle. -/
def timesDirected (calls : List (PairCall P)) (a b : P) : Nat := calls.countP fun c => c.p = a ∧ c.q = b

/-- How often the functor is called for the three particles `a`, `b`, `c`, in any order. -/
def timesTriple (calls : List (TripleCall P)) (a b c : P) : Nat := calls.countP fun t => [t.p, t.q, t.r].Perm [a, b, c]

/-- How often the functor is called with `a` as first particle and `b`, `c`, in any order, as the others. -/
def timesTripleFirst (calls : List (TripleCall P)) (a b c : P) : Nat :=
  calls.countP fun t => t.p = a ∧ ((t.q = b ∧ t.r = c) ∨ (t.q = c ∧ t.r = b))

/-- The container's promise about the ownership flag of a cell: a cell with a particle that is not a halo particle says
that it may contain owned particles. -/
def FlagOk (isHalo : P → Bool) (cell : PCell P) : Prop := ∀ p ∈ cell.particles, isHalo p = false → cell.hasOwned = true

/-- Within distance `c`. -/
def Near (pos : P → V3 Rat) (c : Rat) (a b : P) : Prop := distSq (pos a) (pos b) ≤ c * c

/-- Cell 2 lies, seen from cell 1, in direction `dir`: measured along `dir`, no particle of cell 2 is more than `c` behind
a particle of cell 1. (Squared, so that no root of `dir.dot dir` is needed.) -/
def NotBehind (pos : P → V3 Rat) (dir : V3 Rat) (c : Rat) (cell1 cell2 : List P) : Prop :=
  ∀ p ∈ cell1, ∀ q ∈ cell2, (pos q).dot dir < (pos p).dot dir →
    ((pos p).dot dir - (pos q).dot dir) ^ 2 ≤ c * c * dir.dot dir

end Verif.Spec

namespace Verif.Spec

/-- Vector from the centre of cell `a` to the centre of cell `b`. -/
def cellDirection (cl : V3 Rat) (a b : V3 Nat) : V3 Rat :=
  ⟨((b.x : Rat) - a.x) * cl.x, ((b.y : Rat) - a.y) * cl.y, ((b.z : Rat) - a.z) * cl.z⟩

end Verif.Spec

namespace Verif.Spec

/-- Who is changed by a call, and on account of whom: without Newton 3 only the first particle receives a contribution, with
Newton 3 both do. -/
def contributions {P : Type} (calls : List (PairCall P)) : List (P × P) :=
  calls.flatMap fun c => (c.p, c.q) :: (if c.newton3 then [(c.q, c.p)] else [])

/-- How often `a` receives the contribution (force) of `b`. -/
def timesReceived {P : Type} [DecidableEq P] (calls : List (PairCall P)) (a b : P) : Nat := (contributions calls).count (a, b)

/-- Receiver of a contribution of a triplet call, and the two other particles. -/
def contributions3 {P : Type} (calls : List (TripleCall P)) : List (P × P × P) :=
  calls.flatMap fun c => (c.p, c.q, c.r) :: (if c.newton3 then [(c.q, c.p, c.r), (c.r, c.p, c.q)] else [])

/-- How often `a` receives the contribution of the two particles `b` and `c`. -/
def timesReceived3 {P : Type} [DecidableEq P] (calls : List (TripleCall P)) (a b c : P) : Nat :=
  (contributions3 calls).countP fun t => t.1 = a ∧ ((t.2.1 = b ∧ t.2.2 = c) ∨ (t.2.1 = c ∧ t.2.2 = b))

end Verif.Spec
