import Verif.Model.LJTraversal
/-!
The loops around the body of a pairwise functor that only adds to its particles, as the two functors of
/repo/applicationLibrary/sph/SPHLibrary/ have them: SPHCalcDensityFunctor.h (D) and SPHCalcHydroForceFunctor.h (H). Both functors have the same
four loops; what differs is the body of a loop (`aos`, `soa`) and how a computed value goes into the particle (`add`). The bodies are in
Model/SPH.lean.

The attributes a kernel only reads are an `A`, those it computes are an `M`. An array of a SoA view is a function from indices; the loops stay
below the length of the view.
-/
namespace Verif

/-- A pairwise functor: `aos i j` and `soa i j` are what the body of the AoS function and of the inner SoA loops computes for the first and
for the second particle, `none` if it returns or continues early. `add` brings a new value into an attribute (`+=`, `max`), `zero` is the
initial value of the local variables of the SoA functions. -/
structure PairFunctor (A M : Type) where
  own : A → Ownership
  aos : A → A → Option (M × M)
  soa : A → A → Option (M × M)
  add : M → M → M
  zero : M

section
variable {A M : Type} (F : PairFunctor A M)

/-- `AoSFunctor(i, j, newton3)` on particles in memory, D:44-60, H:46-105: particle `i` gets its value, with Newton 3 also `j`. -/
def PairFunctor.aosCall {P : Type} [DecidableEq P] (attr : P → A) (s : P → M) (call : PairCall P) : P → M :=
  match F.aos (attr call.p) (attr call.q) with
  | none => s
  | some (mi, mj) =>
    let s1 := Function.update s call.p (F.add (s call.p) mi)
    if call.newton3 then Function.update s1 call.q (F.add (s1 call.q) mj) else s1

/-- One iteration of an inner loop, D:103-124, 165-188, 225-248, H:148-216, 274-356, 410-488: the array of the second particles and the local
variables for the first one. -/
def PairFunctor.inner (write : Bool) (i : A) (attr : Nat → A) (s : (Nat → M) × M) (j : Nat) : (Nat → M) × M :=
  match F.soa i (attr j) with
  | none => s
  | some (mi, mj) => (if write then Function.update s.1 j (F.add (s.1 j) mj) else s.1, F.add s.2 mi)

/-- One iteration of the outer loop of `SoAFunctorSingle`, D:93-127, H:134-224. -/
def PairFunctor.singleOuter (attr : Nat → A) (n : Nat) (s : Nat → M) (i : Nat) : Nat → M :=
  if F.own (attr i) = .dummy then s
  else
    let r := (List.range' (i + 1) (n - (i + 1))).foldl (F.inner true (attr i) attr) (s, F.zero)
    Function.update r.1 i (F.add (r.1 i) r.2)

/-- `SoAFunctorSingle(soa, newton3)`, D:79-128, H:111-225; `newton3` is ignored. -/
def PairFunctor.soaSingle (attr : Nat → A) (n : Nat) (s : Nat → M) : Nat → M :=
  if n = 0 then s else (List.range n).foldl (F.singleOuter attr n) s

/-- One iteration of the outer loop of `SoAFunctorPair`, D:156-192, H:260-365. The arrays of the two SoAs do not overlap (`__restrict`). -/
def PairFunctor.pairOuter (newton3 : Bool) (attr₁ attr₂ : Nat → A) (n₂ : Nat) (s : (Nat → M) × (Nat → M)) (i : Nat) : (Nat → M) × (Nat → M) :=
  if F.own (attr₁ i) = .dummy then s
  else
    let r := (List.range n₂).foldl (F.inner newton3 (attr₁ i) attr₂) (s.2, F.zero)
    (Function.update s.1 i (F.add (s.1 i) r.2), r.1)

/-- `SoAFunctorPair(soa1, soa2, newton3)`, D:133-194, H:230-367. -/
def PairFunctor.soaPair (newton3 : Bool) (attr₁ attr₂ : Nat → A) (n₁ n₂ : Nat) (s : (Nat → M) × (Nat → M)) : (Nat → M) × (Nat → M) :=
  if n₁ = 0 ∨ n₂ = 0 then s else (List.range n₁).foldl (F.pairOuter newton3 attr₁ attr₂ n₂) s

/-- `SoAFunctorVerlet(soa, indexFirst, neighborList, newton3)`, D:201-252, H:373-496. -/
def PairFunctor.soaVerlet (newton3 : Bool) (attr : Nat → A) (n first : Nat) (list : List Nat) (s : Nat → M) : Nat → M :=
  if n = 0 then s
  else if F.own (attr first) = .dummy then s
  else
    let r := list.foldl (F.inner newton3 (attr first) attr) (s, F.zero)
    Function.update r.1 first (F.add (r.1 first) r.2)

end

section
variable {A M P : Type} [DecidableEq P] [Inhabited P]

/-- `SoALoader`, /repo/src/autopas/baseFunctors/Functor.h:111-114, 202-230, for a computed or for a needed attribute: a cell is copied to an
array of the SoA. Indices outside of the cell are not read. -/
def soaLoadAt {X : Type} (l : List P) (f : P → X) : Nat → X := fun k => f (l.getD k default)

/-- `SoAExtractor`, Functor.h:125-128, 240-264: the computed attributes are copied back. -/
def soaExtractAt {X : Type} (l : List P) (a : Nat → X) (f : P → X) : P → X := fun p => if p ∈ l then a (l.idxOf p) else f p

/-- A call of one of the four functions of the functor; for the SoA functions with the copies of the cells. -/
def PairFunctor.kernelCall (F : PairFunctor A M) (attr : P → A) (s : P → M) : KernelCall P → P → M
  | .aos call => F.aosCall attr s call
  | .single _ l => soaExtractAt l (F.soaSingle (soaLoadAt l attr) l.length (soaLoadAt l s)) s
  | .pair newton3 l₁ l₂ =>
    let r := F.soaPair newton3 (soaLoadAt l₁ attr) (soaLoadAt l₂ attr) l₁.length l₂.length (soaLoadAt l₁ s, soaLoadAt l₂ s)
    soaExtractAt l₂ r.2 (soaExtractAt l₁ r.1 s)
  | .verlet newton3 l first list => soaExtractAt l (F.soaVerlet newton3 (soaLoadAt l attr) l.length first list (soaLoadAt l s)) s

/-- The calls of the functor in the order in which they happen. -/
def PairFunctor.compute (F : PairFunctor A M) (attr : P → A) (s : P → M) (jobs : List (KernelCall P)) : P → M :=
  jobs.foldl (F.kernelCall attr) s

end

end Verif
