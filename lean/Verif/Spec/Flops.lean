import Verif.Model.LJTraversal
/-!
Which pairs of particles a call of a kernel looks at, and what each of them costs according to the documentation of `getNumFLOPs`
(/repo/applicationLibrary/molecularDynamics/molecularDynamicsLibrary/LJFunctor.h:717-749): 8 for the distance; 15 for the force, and 3 more to
update the second particle; 8 for the globals, one more with a shift, and 4 more to add them for the second particle.
-/
namespace Verif

/-- A kernel is evaluated for particles `i` and `j`; with `newton3` both are updated. -/
structure Evaluation (K : Type) where
  i : Mol K
  j : Mol K
  newton3 : Bool

/-- Every two elements of a list, in its order. -/
def everyTwo {X : Type} : List X → List (X × X)
  | [] => []
  | x :: l => l.map (fun y => (x, y)) ++ everyTwo l

/-- The pairs a kernel call looks at. A SoA processed by itself is traversed with Newton 3, whatever it is told. -/
def KernelCall.evaluations {K P : Type} (mol : P → Mol K) : KernelCall P → List (Evaluation K)
  | .aos call => [⟨mol call.p, mol call.q, call.newton3⟩]
  | .single _ l => (everyTwo l).map fun t => ⟨mol t.1, mol t.2, true⟩
  | .pair newton3 l₁ l₂ => l₁.flatMap fun p => l₂.map fun q => ⟨mol p, mol q, newton3⟩
  | .verlet newton3 l first list =>
    match l[first]? with
    | none => []
    | some p => list.filterMap fun k => (l[k]?).map fun q => ⟨mol p, mol q, newton3⟩

/-- No neighbour list contains the particle itself. -/
def KernelCall.SelfFree {P : Type} : KernelCall P → Prop
  | .verlet _ _ first list => first ∉ list
  | _ => True

section
variable {K : Type} [Field K] [LinearOrder K]

/-- Neither particle was deleted. -/
def Evaluation.real (e : Evaluation K) : Bool := e.i.own ≠ .dummy && e.j.own ≠ .dummy

/-- Neither particle was deleted and they are in the range of the potential. -/
def Evaluation.hit (cutoffSquared : K) (e : Evaluation K) : Bool :=
  e.real && decide ((e.i.pos.x - e.j.pos.x) ^ 2 + (e.i.pos.y - e.j.pos.y) ^ 2 + (e.i.pos.z - e.j.pos.z) ^ 2 ≤ cutoffSquared)

/-- The documented cost of looking at a pair. -/
def Evaluation.cost (cutoffSquared : K) (applyShift calculateGlobals : Bool) (e : Evaluation K) : Nat :=
  (if e.real then 8 else 0) +
  (if e.hit cutoffSquared then
    15 + (if e.newton3 then 3 else 0) +
      (if calculateGlobals then 8 + (if applyShift then 1 else 0) + (if e.newton3 then 4 else 0) else 0)
  else 0)

end

end Verif
