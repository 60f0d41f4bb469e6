import Verif.Model.AutoTuner
import Mathlib.Algebra.BigOperators.Group.List.Basic
import Mathlib.Algebra.Order.Field.Rat
import Mathlib.Algebra.Order.Ring.Abs
/-!
What LOESS smoothing of the last of a sequence of measurements means: a line is fitted to the last few measurements, with tri-cube weights that
decrease with the distance in iterations, such that the weighted sum of squares is minimal; the result is the value of the line at the last one.
-/
namespace Verif.Spec.Smoothing

/-- Tri-cube weight of a point at iteration `x`, seen from the last one at `last`; the neighbourhood begins at `first`. -/
def weight (first last x : Nat) : Rat := (1 - (((last : Rat) - (x : Rat)) / ((last : Rat) - (first : Rat))) ^ 3) ^ 3

/-- The weighted sum of the squared distances of the points from the line `a + b · x`. -/
def loss (first last : Nat) (ps : List Evidence) (a b : Rat) : Rat :=
  (ps.map fun p => weight first last p.iteration * ((p.value : Rat) - (a + b * (p.iteration : Rat))) ^ 2).sum

/-- A line of best fit. -/
def BestLine (first last : Nat) (ps : List Evidence) (a b : Rat) : Prop := ∀ a' b', loss first last ps a b ≤ loss first last ps a' b'

/-- A constant of best fit. -/
def BestConstant (first last : Nat) (ps : List Evidence) (c : Rat) : Prop := ∀ c', loss first last ps c 0 ≤ loss first last ps c' 0

/-- The weighted variance of the iterations of the points. -/
def Variance (first last : Nat) (ps : List Evidence) (v : Rat) : Prop :=
  ∃ m, (ps.map fun p => weight first last p.iteration).sum * m = (ps.map fun p => weight first last p.iteration * (p.iteration : Rat)).sum ∧
    (ps.map fun p => weight first last p.iteration).sum * v =
      (ps.map fun p => weight first last p.iteration * ((p.iteration : Rat) - m) ^ 2).sum

/-- A nearest integer. -/
def Nearest (q : Rat) (r : Int) : Prop := ∀ s : Int, |q - (r : Rat)| ≤ |q - (s : Rat)|

end Verif.Spec.Smoothing
