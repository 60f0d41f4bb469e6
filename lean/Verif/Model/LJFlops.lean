import Verif.Model.LJTraversal
/-!
The counters of `LJFunctor` with the template parameter `countFLOPs`
(/repo/applicationLibrary/molecularDynamics/molecularDynamicsLibrary/LJFunctor.h), `getNumFLOPs`, `getHitRate` and the line
`FLOPLogger` writes of them. Model/LJFunctor.lean has the forces and the globals of the same kernels.

Simplified: the counters (`size_t`) do not overflow.
-/
namespace Verif

/-- `AoSThreadDataFLOPs`, LJFunctor.h:1145-1190. -/
structure LJFlops where
  numKernelCallsNoN3 : Nat
  numKernelCallsN3 : Nat
  numDistCalls : Nat
  numGlobalCalcsN3 : Nat
  numGlobalCalcsNoN3 : Nat
deriving DecidableEq, Repr

/-- `setZero()`, LJFunctor.h:1152-1158. -/
def LJFlops.zero : LJFlops := ⟨0, 0, 0, 0, 0⟩

/-- `+=` of the five counters, e.g. LJFunctor.h:546-552. -/
def LJFlops.plus (a b : LJFlops) : LJFlops :=
  ⟨a.numKernelCallsNoN3 + b.numKernelCallsNoN3, a.numKernelCallsN3 + b.numKernelCallsN3, a.numDistCalls + b.numDistCalls,
    a.numGlobalCalcsN3 + b.numGlobalCalcsN3, a.numGlobalCalcsNoN3 + b.numGlobalCalcsNoN3⟩

section
variable {K : Type} [Field K] [LinearOrder K]

/-- `AoSFunctor(i, j, newton3)`, LJFunctor.h:123-131 (`numDistCalls`), 146-148, 164-170 (kernel calls), 186-192 (globals). -/
def flopsAoS (c : LJCfg K) (calculateGlobals newton3 : Bool) (i j : Mol K) (f : LJFlops) : LJFlops :=
  if i.own = .dummy ∨ j.own = .dummy then f
  else
    let f := { f with numDistCalls := f.numDistCalls + 1 }
    if c.cutoffSquared < (i.pos - j.pos).inner (i.pos - j.pos) then f
    else
      let f := if newton3 then { f with numKernelCallsN3 := f.numKernelCallsN3 + 1 }
        else { f with numKernelCallsNoN3 := f.numKernelCallsNoN3 + 1 }
      if calculateGlobals then
        if newton3 then { f with numGlobalCalcsN3 := f.numGlobalCalcsN3 + 1 }
        else { f with numGlobalCalcsNoN3 := f.numGlobalCalcsNoN3 + 1 }
      else f

/-- `mask` as a number, LJFunctor.h:296, 485, 931. -/
def flopsMask (c : LJCfg K) (i j : Mol K) : Nat :=
  let dr := i.pos - j.pos
  let dr2 := dr.x * dr.x + dr.y * dr.y + dr.z * dr.z
  if dr2 ≤ c.cutoffSquared ∧ j.own ≠ .dummy then 1 else 0

/-- The counters in the inner loop of `SoAFunctorSingle`, LJFunctor.h:320-323, 340-342, and where they go at its end (:350-355). -/
def flopsSingleInner (c : LJCfg K) (calculateGlobals : Bool) (i : Mol K) (mol : Nat → Mol K) (f : LJFlops) (j : Nat) : LJFlops :=
  let mask := flopsMask c i (mol j)
  { f with
    numDistCalls := f.numDistCalls + if (mol j).own ≠ Ownership.dummy then 1 else 0
    numKernelCallsN3 := f.numKernelCallsN3 + mask
    numGlobalCalcsN3 := f.numGlobalCalcsN3 + if calculateGlobals then mask else 0 }

/-- The outer loop of `SoAFunctorSingle`, LJFunctor.h:248-252, 272. -/
def flopsSingleOuter (c : LJCfg K) (calculateGlobals : Bool) (mol : Nat → Mol K) (n : Nat) (f : LJFlops) (i : Nat) : LJFlops :=
  if (mol i).own = .dummy then f
  else (List.range' (i + 1) (n - (i + 1))).foldl (flopsSingleInner c calculateGlobals (mol i) mol) f

/-- `SoAFunctorSingle(soa, newton3)`, LJFunctor.h:202-203, 225-228, 248, 350-355: the argument `newton3` is not used. -/
def flopsSingle (c : LJCfg K) (calculateGlobals : Bool) (mol : Nat → Mol K) (n : Nat) (f : LJFlops) : LJFlops :=
  if n = 0 then f else f.plus ((List.range n).foldl (flopsSingleOuter c calculateGlobals mol n) .zero)

/-- The counters in the inner loop of `SoAFunctorPairImpl<newton3>`, LJFunctor.h:509-516, 533-539, and in the vectorised loop of
`SoAFunctorVerletImpl<newton3>`, :956-963, 980-986. -/
def flopsInner (c : LJCfg K) (calculateGlobals newton3 : Bool) (i j : Mol K) (f : LJFlops) : LJFlops :=
  let mask := flopsMask c i j
  let f := { f with numDistCalls := f.numDistCalls + if j.own ≠ Ownership.dummy then 1 else 0 }
  let f := if newton3 then { f with numKernelCallsN3 := f.numKernelCallsN3 + mask }
    else { f with numKernelCallsNoN3 := f.numKernelCallsNoN3 + mask }
  if calculateGlobals then
    if newton3 then { f with numGlobalCalcsN3 := f.numGlobalCalcsN3 + mask }
    else { f with numGlobalCalcsNoN3 := f.numGlobalCalcsNoN3 + mask }
  else f

/-- The outer loop of `SoAFunctorPairImpl<newton3>`, LJFunctor.h:440-445, 464. -/
def flopsPairOuter (c : LJCfg K) (calculateGlobals newton3 : Bool) (mol₁ mol₂ : Nat → Mol K) (n₂ : Nat) (f : LJFlops) (i : Nat) : LJFlops :=
  if (mol₁ i).own = .dummy then f
  else (List.range n₂).foldl (fun f j => flopsInner c calculateGlobals newton3 (mol₁ i) (mol₂ j) f) f

/-- `SoAFunctorPair(soa1, soa2, newton3)`, LJFunctor.h:369-376, 387-389, 546-552. -/
def flopsPair (c : LJCfg K) (calculateGlobals newton3 : Bool) (mol₁ mol₂ : Nat → Mol K) (n₁ n₂ : Nat) (f : LJFlops) : LJFlops :=
  if n₁ = 0 ∨ n₂ = 0 then f
  else f.plus ((List.range n₁).foldl (flopsPairOuter c calculateGlobals newton3 mol₁ mol₂ n₂) .zero)

/-- The vectorised loop of `SoAFunctorVerletImpl<newton3>`, LJFunctor.h:880-988, and the rest of the list. -/
def flopsVerletBlocks (c : LJCfg K) (calculateGlobals newton3 : Bool) (vecsize : Nat) (i : Mol K) (mol : Nat → Mol K) (f : LJFlops)
    (list : List Nat) : LJFlops × List Nat :=
  if _h : 0 < vecsize ∧ vecsize ≤ list.length then
    flopsVerletBlocks c calculateGlobals newton3 vecsize i mol
      ((list.take vecsize).foldl (fun f j => flopsInner c calculateGlobals newton3 i (mol j) f) f) (list.drop vecsize)
  else (f, list)
termination_by list.length
decreasing_by simp only [List.length_drop]; omega

/-- The loop over the remainder, LJFunctor.h:1002-1005, 1013-1016, 1028-1034, 1056-1062, 1079-1085. -/
def flopsVerletRest (c : LJCfg K) (calculateGlobals newton3 : Bool) (first : Nat) (mol : Nat → Mol K) (f : LJFlops) (j : Nat) : LJFlops :=
  if first = j then f
  else if (mol j).own = .dummy then f
  else
    let f := { f with numDistCalls := f.numDistCalls + 1 }
    let dr := (mol first).pos - (mol j).pos
    if c.cutoffSquared < dr.x * dr.x + dr.y * dr.y + dr.z * dr.z then f
    else
      let f := if newton3 then { f with numKernelCallsN3 := f.numKernelCallsN3 + 1 }
        else { f with numKernelCallsNoN3 := f.numKernelCallsNoN3 + 1 }
      if calculateGlobals then
        if newton3 then { f with numGlobalCalcsN3 := f.numGlobalCalcsN3 + 1 }
        else { f with numGlobalCalcsNoN3 := f.numGlobalCalcsNoN3 + 1 }
      else f

/-- `SoAFunctorVerlet(soa, indexFirst, neighborList, newton3)`, LJFunctor.h:569-578, 829-834, 845-849, 1094-1100. -/
def flopsVerlet (c : LJCfg K) (calculateGlobals newton3 : Bool) (vecsize : Nat) (mol : Nat → Mol K) (n first : Nat) (list : List Nat)
    (f : LJFlops) : LJFlops :=
  if n = 0 ∨ list = [] then f
  else if (mol first).own = .dummy then f
  else
    let b := flopsVerletBlocks c calculateGlobals newton3 vecsize (mol first) mol .zero list
    f.plus (b.2.foldl (flopsVerletRest c calculateGlobals newton3 first mol) b.1)

section
variable {P : Type}

/-- A call of one of the four kernels. -/
def flopsKernelCall (c : LJCfg K) (calculateGlobals : Bool) (vecsize : Nat) (mol : P → Mol K) (f : LJFlops) : KernelCall P → LJFlops
  | .aos call => flopsAoS c calculateGlobals call.newton3 (mol call.p) (mol call.q) f
  | .single _ l => flopsSingle c calculateGlobals (soaLoadMols l mol) l.length f
  | .pair newton3 l₁ l₂ => flopsPair c calculateGlobals newton3 (soaLoadMols l₁ mol) (soaLoadMols l₂ mol) l₁.length l₂.length f
  | .verlet newton3 l first list => flopsVerlet c calculateGlobals newton3 vecsize (soaLoadMols l mol) l.length first list f

/-- Thread `job.1` calls a kernel: `_aosThreadDataFLOPs[threadnum]` (LJFunctor.h:127, 204, 385, 851). -/
def flopsJob (c : LJCfg K) (calculateGlobals : Bool) (vecsize : Nat) (mol : P → Mol K) (d : List LJFlops) (job : Nat × KernelCall P) :
    List LJFlops :=
  d.set job.1 (flopsKernelCall c calculateGlobals vecsize mol (d.getD job.1 .zero) job.2)

/-- `initTraversal()`, LJFunctor.h:644-648: the counters of every thread. -/
def flopsInitTraversal (d : List LJFlops) : List LJFlops := d.map fun _ => .zero

/-- `initTraversal()` and then the kernel calls in the order in which they happen, each with the thread that makes it
(/repo/src/autopas/LogicHandler.h:1072-1086). `d` is what earlier traversals left. -/
def flopsCompute (c : LJCfg K) (calculateGlobals : Bool) (vecsize : Nat) (mol : P → Mol K) (d : List LJFlops)
    (jobs : List (Nat × KernelCall P)) : List LJFlops :=
  jobs.foldl (flopsJob c calculateGlobals vecsize mol) (flopsInitTraversal d)

end

end

/-- `getNumFLOPs()` with `countFLOPs`, LJFunctor.h:752-779. -/
def getNumFLOPs (applyShift : Bool) (d : List LJFlops) : Nat :=
  let numDistCallsAcc := d.foldl (fun sum data => sum + data.numDistCalls) 0
  let numKernelCallsN3Acc := d.foldl (fun sum data => sum + data.numKernelCallsN3) 0
  let numKernelCallsNoN3Acc := d.foldl (fun sum data => sum + data.numKernelCallsNoN3) 0
  let numGlobalCalcsN3Acc := d.foldl (fun sum data => sum + data.numGlobalCalcsN3) 0
  let numGlobalCalcsNoN3Acc := d.foldl (fun sum data => sum + data.numGlobalCalcsNoN3) 0
  numDistCallsAcc * 8 + numKernelCallsN3Acc * 18 + numKernelCallsNoN3Acc * 15 +
    numGlobalCalcsN3Acc * (if applyShift then 13 else 12) + numGlobalCalcsNoN3Acc * (if applyShift then 9 else 8)

/-- `getHitRate()` with `countFLOPs`, LJFunctor.h:785-799. -/
def getHitRate (d : List LJFlops) : Num Rat :=
  let numDistCallsAcc : Nat := d.foldl (fun sum data => sum + data.numDistCalls) 0
  let numKernelCallsN3Acc : Nat := d.foldl (fun sum data => sum + data.numKernelCallsN3) 0
  let numKernelCallsNoN3Acc : Nat := d.foldl (fun sum data => sum + data.numKernelCallsNoN3) 0
  (.fin (numKernelCallsNoN3Acc : Rat) + .fin (numKernelCallsN3Acc : Rat)) / .fin (numDistCallsAcc : Rat)

/-- `FLOPLogger::logIteration`, /repo/src/autopas/utils/logging/FLOPLogger.cpp:48-58, the fields after the iteration: `none` is "Not Implemented".
`max` is `std::numeric_limits<size_t>::max()`. -/
def flopLogFields (max numFLOPs : Nat) (hitRate : Num Rat) : Option Nat × Option Rat :=
  (if numFLOPs ≠ max then some numFLOPs else none, match hitRate with | .fin r => some r | .nonFinite => none)

/-! ### The operations the AoS kernel executes -/

section
variable {K : Type} [Field K] [LinearOrder K]

/-- A value and the number of floating point additions, subtractions, multiplications and divisions executed to get it. -/
structure Counted (α : Type) where
  val : α
  ops : Nat

instance : Monad Counted where
  pure a := ⟨a, 0⟩
  bind a f := ⟨(f a.val).val, a.ops + (f a.val).ops⟩

namespace Counted
/-- One operation. -/
def op {α : Type} (a : α) : Counted α := ⟨a, 1⟩
/-- `+`, `-` and `*` of arrays of three numbers and `array * scalar`, /repo/src/autopas/utils/ArrayMath.h:27-35, 97-105, 133-141, 170-178: one
operation per component. -/
def arr {α : Type} (x y z : Counted α) : Counted (V3 α) := do
  let x ← x
  let y ← y
  let z ← z
  return ⟨x, y, z⟩
end Counted

/-- What the kernel leaves behind: the forces of `i` and of `j` and the sums of the thread. -/
structure AoSResult (K : Type) where
  forceI : V3 (Num K)
  forceJ : V3 (Num K)
  globals : LJGlobals K

/-- `AoSFunctor(i, j, newton3)`, LJFunctor.h:120-195, operation by operation. The comparison of `dr2` with the cutoff is not counted. Positions
are numbers of `K`. `i` and `j` are different particles. -/
def countedAoS (c : LJCfg K) (calculateGlobals newton3 : Bool) (i j : Mol K) (s : AoSResult K) : Counted (AoSResult K) :=
  if i.own = .dummy ∨ j.own = .dummy then pure s
  else do
    let sigmaSquared : Num K := .fin (c.sig i.type j.type)
    let epsilon24 : Num K := .fin (c.eps i.type j.type)
    let shift6 : Num K := .fin (c.shift i.type j.type)
    -- auto dr = i.getR() - j.getR();
    let dr ← Counted.arr (.op (i.pos.x - j.pos.x)) (.op (i.pos.y - j.pos.y)) (.op (i.pos.z - j.pos.z))
    -- double dr2 = dot(dr, dr);
    let xx ← .op (dr.x * dr.x)
    let yy ← .op (dr.y * dr.y)
    let zz ← .op (dr.z * dr.z)
    let xy ← .op (xx + yy)
    let dr2 ← .op (xy + zz)
    if c.cutoffSquared < dr2 then return s
    else do
      let invdr2 : Num K ← .op (.fin 1 / .fin dr2)
      let lj2 ← .op (sigmaSquared * invdr2)
      let lj4 ← .op (lj2 * lj2)
      let lj6 ← .op (lj4 * lj2)
      let lj12 ← .op (lj6 * lj6)
      let lj12m6 ← .op (lj12 - lj6)
      let sum ← .op (lj12 + lj12m6)
      let prod ← .op (epsilon24 * sum)
      let fac ← .op (prod * invdr2)
      let f ← Counted.arr (.op (.fin dr.x * fac)) (.op (.fin dr.y * fac)) (.op (.fin dr.z * fac))
      -- i.addF(f);
      let forceI ← Counted.arr (.op (s.forceI.x + f.x)) (.op (s.forceI.y + f.y)) (.op (s.forceI.z + f.z))
      -- if (newton3) j.subF(f);
      let forceJ ← if newton3 then Counted.arr (.op (s.forceJ.x - f.x)) (.op (s.forceJ.y - f.y)) (.op (s.forceJ.z - f.z)) else pure s.forceJ
      if calculateGlobals then do
        let virial ← Counted.arr (.op (.fin dr.x * f.x)) (.op (.fin dr.y * f.y)) (.op (.fin dr.z * f.z))
        let scaled ← .op (epsilon24 * lj12m6)
        let potentialEnergy6 ← .op (scaled + shift6)
        let add (g : LJGlobals K) : Counted (LJGlobals K) := do
          let upot ← .op (g.potentialEnergySum + potentialEnergy6)
          let vir ← Counted.arr (.op (g.virialSum.x + virial.x)) (.op (g.virialSum.y + virial.y)) (.op (g.virialSum.z + virial.z))
          return ⟨vir, upot⟩
        let g ← if i.own = .owned then add s.globals else pure s.globals
        let g ← if newton3 = true ∧ j.own = .owned then add g else pure g
        return ⟨forceI, forceJ, g⟩
      else return ⟨forceI, forceJ, s.globals⟩

end

end Verif
