import Verif.Model.LJFunctor
/-!
Model of /repo/applicationLibrary/molecularDynamics/molecularDynamicsLibrary/AxilrodTellerFunctor.h. `std::sqrt` is a parameter.
-/
namespace Verif

/-- The state of an `AxilrodTellerFunctor` that does not change in a traversal, AxilrodTellerFunctor.h:592-598; `mixNu i j k` is
`getMixingNu(i, j, k)` of the particle properties library. -/
structure ATCfg (K : Type) where
  useMixing : Bool
  cutoffSquared : K
  nu : K
  mixNu : Nat → Nat → Nat → K

section
variable {K : Type} [Field K] [LinearOrder K]

/-- The local variable `nu`, AxilrodTellerFunctor.h:194-197. -/
def ATCfg.nuOf (c : ATCfg K) (ti tj tk : Nat) : K := if c.useMixing then c.mixNu ti tj tk else c.nu

/-- `forceI`, `forceJ`, `forceK` (for Newton 3) and `potentialEnergy3`, AxilrodTellerFunctor.h:199-247, 260. -/
def atKernel (sqrt : K → Num K) (c : ATCfg K) (i j k : Mol K) : V3 (Num K) × V3 (Num K) × V3 (Num K) × Num K :=
  let nu := c.nuOf i.type j.type k.type
  let displacementIJ := j.pos - i.pos
  let displacementJK := k.pos - j.pos
  let displacementKI := i.pos - k.pos
  let distSquaredIJ := displacementIJ.inner displacementIJ
  let distSquaredJK := displacementJK.inner displacementJK
  let distSquaredKI := displacementKI.inner displacementKI
  let allDistsSquared := distSquaredIJ * distSquaredJK * distSquaredKI
  let allDistsTo5 := .fin (allDistsSquared * allDistsSquared) * sqrt allDistsSquared
  let factor := .fin (3 * nu) / allDistsTo5
  let IJDotKI := displacementIJ.inner displacementKI
  let IJDotJK := displacementIJ.inner displacementJK
  let JKDotKI := displacementJK.inner displacementKI
  let allDotProducts := IJDotKI * IJDotJK * JKDotKI
  let forceIDirectionJK := (displacementJK.fin.scale (.fin IJDotKI)).scale (.fin (IJDotJK - JKDotKI))
  let forceIDirectionIJ := displacementIJ.fin.scale
    (.fin (IJDotJK * JKDotKI - distSquaredJK * distSquaredKI) + .fin (5 * allDotProducts) / .fin distSquaredIJ)
  let forceIDirectionKI := displacementKI.fin.scale
    (.fin (-IJDotJK * JKDotKI + distSquaredIJ * distSquaredJK) - .fin (5 * allDotProducts) / .fin distSquaredKI)
  let forceI := (forceIDirectionJK + forceIDirectionIJ + forceIDirectionKI).scale factor
  let forceJDirectionKI := (displacementKI.fin.scale (.fin IJDotJK)).scale (.fin (JKDotKI - IJDotKI))
  let forceJDirectionIJ := displacementIJ.fin.scale
    (.fin (-IJDotKI * JKDotKI + distSquaredJK * distSquaredKI) - .fin (5 * allDotProducts) / .fin distSquaredIJ)
  let forceJDirectionJK := displacementJK.fin.scale
    (.fin (IJDotKI * JKDotKI - distSquaredIJ * distSquaredKI) + .fin (5 * allDotProducts) / .fin distSquaredJK)
  let forceJ := (forceJDirectionKI + forceJDirectionIJ + forceJDirectionJK).scale factor
  let forceK := (forceI + forceJ).scale (.fin (-1))
  (forceI, forceJ, forceK, factor * .fin (allDistsSquared - 3 * allDotProducts))

/-- One of the distances is above the cutoff, AxilrodTellerFunctor.h:203-210. -/
def atFar (c : ATCfg K) (i j k : Mol K) : Prop :=
  c.cutoffSquared < (j.pos - i.pos).inner (j.pos - i.pos) ∨ c.cutoffSquared < (k.pos - j.pos).inner (k.pos - j.pos) ∨
    c.cutoffSquared < (i.pos - k.pos).inner (i.pos - k.pos)

instance (c : ATCfg K) (i j k : Mol K) : Decidable (atFar c i j k) := by unfold atFar; infer_instance

/-- What a call adds. -/
structure ATAdds (K : Type) where
  forceI : V3 (Num K)
  forceJ : V3 (Num K)
  forceK : V3 (Num K)
  globals : LJGlobals K

/-- `AoSFunctor(i, j, k, newton3)`, AxilrodTellerFunctor.h:181-288, for `calculateGlobals`: what is added to the forces of the particles and
to the sums of the thread; `none`: it returns early (:185, :209). -/
def atAoS (sqrt : K → Num K) (c : ATCfg K) (newton3 : Bool) (i j k : Mol K) : Option (ATAdds K) :=
  if i.own = .dummy ∨ j.own = .dummy ∨ k.own = .dummy then none
  else if atFar c i j k then none
  else
    let r := atKernel sqrt c i j k
    let g0 : LJGlobals K := .zero
    let g1 := if i.own = .owned then g0.plus (r.1 * i.pos.fin) r.2.2.2 else g0
    let g2 := if newton3 = true ∧ j.own = .owned then g1.plus (r.2.1 * j.pos.fin) r.2.2.2 else g1
    let g3 := if newton3 = true ∧ k.own = .owned then g2.plus (r.2.2.1 * k.pos.fin) r.2.2.2 else g2
    some ⟨r.1, if newton3 then r.2.1 else 0, if newton3 then r.2.2.1 else 0, g3⟩

/-- `AoSFunctor` on particles in memory. -/
def atAoSCall {P : Type} [DecidableEq P] (sqrt : K → Num K) (c : ATCfg K) (mol : P → Mol K) (s : LJState P K) (call : TripleCall P) :
    LJState P K :=
  match atAoS sqrt c call.newton3 (mol call.p) (mol call.q) (mol call.r) with
  | none => s
  | some a =>
    let f1 := Function.update s.force call.p (s.force call.p + a.forceI)
    let f2 := Function.update f1 call.q (f1 call.q + a.forceJ)
    ⟨Function.update f2 call.r (f2 call.r + a.forceK), s.globals.plus a.globals.virialSum a.globals.potentialEnergySum⟩

/-- `endTraversal(newton3)`, AxilrodTellerFunctor.h:349-375, for `calculateGlobals`: `_potentialEnergySum` and `_virialSum`. -/
def atEndTraversal (threadData : List (LJGlobals K)) : Num K × V3 (Num K) :=
  let sums := threadData.foldl (fun s d => (s.1 + d.potentialEnergySum, s.2 + d.virialSum)) ((0 : Num K), (0 : V3 (Num K)))
  (sums.1 / .fin 3 / .fin 3, sums.2)

/-- `AoSThreadDataFLOPs`, AxilrodTellerFunctor.h:536-583. -/
structure ATFlops where
  numKernelCallsNoN3 : Nat
  numKernelCallsN3 : Nat
  numDistCalls : Nat
  numGlobalCalcsN3 : Nat
  numGlobalCalcsNoN3 : Nat
deriving DecidableEq

/-- Its initial values (:552-577). -/
def ATFlops.zero : ATFlops := ⟨0, 0, 0, 0, 0⟩

/-- The counters after a call, AxilrodTellerFunctor.h:190-192, 249-255, 280-286, for `countFLOPs` and `calculateGlobals`. -/
def ATFlops.call (f : ATFlops) (c : ATCfg K) (newton3 : Bool) (i j k : Mol K) : ATFlops :=
  if i.own = .dummy ∨ j.own = .dummy ∨ k.own = .dummy then f
  else
    let f := { f with numDistCalls := f.numDistCalls + 1 }
    if atFar c i j k then f
    else if newton3 then { f with numKernelCallsN3 := f.numKernelCallsN3 + 1, numGlobalCalcsN3 := f.numGlobalCalcsN3 + 1 }
    else { f with numKernelCallsNoN3 := f.numKernelCallsNoN3 + 1, numGlobalCalcsNoN3 := f.numGlobalCalcsNoN3 + 1 }

/-- `getNumFLOPs()`, AxilrodTellerFunctor.h:447-478, with one thread. -/
def ATFlops.getNumFLOPs (f : ATFlops) : Nat :=
  f.numDistCalls * 24 + f.numKernelCallsN3 * 100 + f.numKernelCallsNoN3 * 59 + f.numGlobalCalcsN3 * 24 + f.numGlobalCalcsNoN3 * 10

/-- `initTraversal()`, AxilrodTellerFunctor.h:336-343: the counters are kept. (Compare LJFunctor.h:644-648.) -/
def ATFlops.initTraversal (f : ATFlops) : ATFlops := f

/-- The counters over several traversals, each a list of calls. -/
def ATFlops.traversals {P : Type} (c : ATCfg K) (mol : P → Mol K) (ts : List (List (TripleCall P))) : ATFlops :=
  ts.foldl (fun f t => t.foldl (fun f call => f.call c call.newton3 (mol call.p) (mol call.q) (mol call.r)) f.initTraversal) .zero

end

end Verif
