import Verif.Model.Mapping
/-!
Model of /repo/src/autopas/containers/cellTraversals/ColorBasedTraversal.h and of the iteration
ranges of the traversals built on it (C01-, C04-, C08-, C18BasedTraversal.h).
A traversal is the list of its colours; a colour is the list of loop-body invocations `(x, y, z)`.
All invocations of one colour may run concurrently (`omp for`), colours are separated by barriers
(the implicit barrier of `omp for`, ColorBasedTraversal.h:139-143).
-/
namespace Verif

/-- Loop nest of one colour, ColorBasedTraversal.h:144-170 (both `collapseDepth` branches run the
same iterations). -/
def colorCells (fin stride offset : V3 Nat) (col : Nat) : List (V3 Nat) :=
  let startWithoutOffset := oneToThreeD col stride
  let start : V3 Nat := ⟨startWithoutOffset.x + offset.x, startWithoutOffset.y + offset.y, startWithoutOffset.z + offset.z⟩
  (forUp start.z fin.z stride.z).flatMap fun z =>
    (forUp start.y fin.y stride.y).flatMap fun y =>
      (forUp start.x fin.x stride.x).map fun x => ⟨x, y, z⟩

/-- `colorTraversal(loopBody, end, stride, offset)`, ColorBasedTraversal.h:132-174:
the loop over `numColors = stride[0] * stride[1] * stride[2]` colours. -/
def colorTraversal (fin stride offset : V3 Nat) : List (List (V3 Nat)) :=
  (List.range (stride.x * stride.y * stride.z)).map (colorCells fin stride offset)

/-- Component-wise `a - b` on unsigned values (`ArrayMath` `operator-`). The real subtraction wraps
when `b > a`; theorems assume `b ≤ a` componentwise. -/
def V3.sub (a b : V3 Nat) : V3 Nat := ⟨a.x - b.x, a.y - b.y, a.z - b.z⟩

/-- `c01Traversal`, C01BasedTraversal.h:54-62: offset = overlap, end = dims - overlap, stride 1. -/
def c01Bases (dims ov : V3 Nat) : List (List (V3 Nat)) :=
  colorTraversal (dims.sub ov) ⟨1, 1, 1⟩ ov

/-- `c04Traversal`, C04BasedTraversal.h:52-61: end = dims - overlap, stride = overlap + 1 except 1 in x. -/
def c04Bases (dims ov : V3 Nat) : List (List (V3 Nat)) :=
  colorTraversal (dims.sub ov) ⟨1, ov.y + 1, ov.z + 1⟩ ⟨0, 0, 0⟩

/-- `c08Traversal`, C08BasedTraversal.h:50-58: end = dims - overlap, stride = overlap + 1. -/
def c08Bases (dims ov : V3 Nat) : List (List (V3 Nat)) :=
  colorTraversal (dims.sub ov) ⟨ov.x + 1, ov.y + 1, ov.z + 1⟩ ⟨0, 0, 0⟩

/-- `c18Traversal<allCells>`, C18BasedTraversal.h:57-70: stride (2ov+1, 2ov+1, ov+1), end = dims, reduced by
the overlap in z if not all cells are to be visited. -/
def c18Bases (allCells : Bool) (dims ov : V3 Nat) : List (List (V3 Nat)) :=
  let fin := if allCells then dims else ⟨dims.x, dims.y, dims.z - ov.z⟩
  colorTraversal fin ⟨2 * ov.x + 1, 2 * ov.y + 1, ov.z + 1⟩ ⟨0, 0, 0⟩

end Verif
