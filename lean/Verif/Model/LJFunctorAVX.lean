import Verif.Model.LJTraversal
import Mathlib.Data.Fin.VecNotation
/-!
Model of /repo/applicationLibrary/molecularDynamics/molecularDynamicsLibrary/LJFunctorAVX.h: the Lennard-Jones functor with AVX intrinsics, which
md-flexible uses by default. Its AoS kernel (LJFunctorAVX.h:126-178), `initTraversal`, `endTraversal` and getters are those of `LJFunctor.h`
word by word (`Model/LJFunctor.lean`); the SoA kernels process four particles at a time in registers and mask what is left.

A register is a function of its four lanes; the three registers for x, y and z are one register of vectors. Arithmetic as in `Model/Num.lean`; an
`and` with a mask sets the lanes outside of it to +0. `wrapperFMA` is a multiplication and an addition, there is no rounding. The ownership
states, integers whose bits are compared as doubles (:529, :594-600), are compared as what they are. (That needs denormal numbers: were they
flushed to zero, every particle would count as deleted.)

Reading or writing behind the end of an array is undefined: `none`.
-/
namespace Verif

/-- `__m256d`: lane 0 is the one in memory first. -/
abbrev Reg (α : Type) := Fin 4 → α

/-- `_masks`, LJFunctorAVX.h:1005-1009; the last argument of `_mm256_set_epi64x` is lane 0. -/
def avxMasks : List (Reg Bool) := [![true, false, false, false], ![true, true, false, false], ![true, true, true, false]]

/-- `i & (vecLength - 1)`, e.g. LJFunctorAVX.h:269. -/
def avxRest (n : Nat) : Nat := n &&& 3

/-- The values of `j` in the loops `for (; j < (n & ~(vecLength - 1)); j += 4)`, e.g. LJFunctorAVX.h:258-266; `n & ~(vecLength - 1)` is `n` without the
rest. -/
def avxStarts (n : Nat) : List Nat := List.range' 0 ((n - avxRest n) / 4) 4

section
variable {K : Type} [Field K] [LinearOrder K]

/-- Sum of the lanes as computed with `_mm256_hadd_pd`, `_mm256_extractf128_pd` and `_mm_add_pd`, e.g. LJFunctorAVX.h:276-291:
`hadd(a, b) = (a0 + a1, b0 + b1, a2 + a3, b2 + b3)`; of the two results this is the one for the first argument. -/
def avxHSum (a : Reg (Num K)) : Num K := (a 0 + a 1) + (a 2 + a 3)

/-- The same for three registers. -/
def avxHSumV (a : Reg (V3 (Num K))) : V3 (Num K) := ⟨avxHSum fun l => (a l).x, avxHSum fun l => (a l).y, avxHSum fun l => (a l).z⟩

/-- The accumulators `fxacc, fyacc, fzacc`, `virialSumX, virialSumY, virialSumZ` and `potentialEnergySum`. -/
structure AvxAcc (K : Type) where
  acc : Reg (V3 (Num K))
  virial : Reg (V3 (Num K))
  upot : Reg (Num K)

/-- `_mm256_setzero_pd()` for all of them. -/
def AvxAcc.zero : AvxAcc K := ⟨fun _ => 0, fun _ => 0, fun _ => 0⟩

/-- Whether the type of lane `l` is read: `not remainderIsMasked or rest > l`; that of lane 0 always, LJFunctorAVX.h:482-501. -/
def avxReadsType (rest : Option Nat) (l : Fin 4) : Bool :=
  match rest with
  | none => true
  | some r => decide (l = 0) || decide (l.val < r)

/-- The registers of `SoAKernel` that its result depends on, one lane of each: `cutoffDummyMask`, `fx, fy, fz`, and what is added to the sums. -/
structure AvxLane (K : Type) where
  cutoffDummyMask : Bool
  f : V3 (Num K)
  virial : V3 (Num K)
  upot : Num K

/-- One lane of the registers of `SoAKernel<newton3, remainderIsMasked>`, LJFunctorAVX.h:479-556, 580-605; every instruction there works lane by lane.
`mask` is the lane of `_masks[rest - 1]` (or true), `reads` whether the type of the second particle is read, `q` the entries of the arrays at
the place of this lane: those outside of the mask are not looked at, `_mm256_maskload_pd` gives 0 for them. -/
def avxLane (c : LJCfg K) (newton3 : Bool) (i : Mol K) (mask reads : Bool) (q : Mol K) : AvxLane K :=
  let eps : K := if c.useMixing then (if reads then c.mixEpsilon24 i.type q.type else 0) else c.epsilon24
  let sig : K := if c.useMixing then (if reads then c.mixSigmaSquared i.type q.type else 0) else c.sigmaSquared
  let shift : K := if c.useMixing then (if c.applyShift then (if reads then c.mixShift6 i.type q.type else 0) else c.shift6) else c.shift6
  let r2 : V3 K := if mask then q.pos else 0
  let dr : V3 K := i.pos - r2
  let dr2 : K := dr.x * dr.x + dr.y * dr.y + dr.z * dr.z
  let cutoffMask : Bool := decide (dr2 ≤ c.cutoffSquared)
  let ownedStateJ : Ownership := if mask then q.own else .dummy
  let dummyMask : Bool := decide (ownedStateJ ≠ .dummy)
  let cutoffDummyMask : Bool := cutoffMask && dummyMask
  let invdr2 : Num K := .fin 1 / .fin dr2
  let lj2 : Num K := .fin sig * invdr2
  let lj4 : Num K := lj2 * lj2
  let lj6 : Num K := lj2 * lj4
  let lj12 : Num K := lj6 * lj6
  let lj12m6 : Num K := lj12 - lj6
  let fac : Num K := (lj12m6 + lj12) * .fin eps * invdr2
  let facMasked : Num K := if cutoffDummyMask && mask then fac else .fin 0
  let f : V3 (Num K) := dr.fin.scale facMasked
  let virial : V3 (Num K) := f * dr.fin
  let upot : Num K := .fin eps * lj12m6 + .fin shift
  let upotMasked : Num K := if cutoffDummyMask && mask then upot else .fin 0
  let factor : Num K :=
    (if i.own = .owned then .fin 1 else .fin 0) + (if newton3 then (if ownedStateJ = .owned then .fin 1 else .fin 0) else .fin 0)
  ⟨cutoffDummyMask, f, virial.scale factor, factor * upotMasked⟩

/-- `_masks[rest - 1]`; without `remainderIsMasked` (`none`) there is no mask. -/
def avxMaskOf : Option Nat → Option (Reg Bool)
  | none => some fun _ => true
  | some r => avxMasks[r - 1]?

/-- `_mm256_maskload_pd`, `_mm256_sub_pd` and `_mm256_maskstore_pd` of the forces of the second particles, LJFunctorAVX.h:559-578. -/
def avxSubForces (mask : Reg Bool) (j : Nat) (f : Reg (V3 (Num K))) (force : ForceArr K) : ForceArr K := fun k =>
  if h : j ≤ k ∧ k < j + 4 then
    (if mask ⟨k - j, by omega⟩ then force k - f ⟨k - j, by omega⟩ else force k)
  else force k

/-- `SoAKernel<newton3, remainderIsMasked>(j, ..)`, LJFunctorAVX.h:471-607. `rest` is `none` if `remainderIsMasked` is false. `i` is the first
particle, `mol` and `force` the arrays of the second ones, which have `n` entries. -/
def avxKernel (c : LJCfg K) (newton3 : Bool) (rest : Option Nat) (i : Mol K) (n : Nat) (mol : Nat → Mol K) (j : Nat) (s : ForceArr K × AvxAcc K) :
    Option (ForceArr K × AvxAcc K) :=
  match avxMaskOf rest with
  | none => none
  | some mask =>
    -- the entries that are read exist
    if ∀ l : Fin 4, (mask l = true ∨ (c.useMixing = true ∧ avxReadsType rest l = true)) → j + l.val < n then
      let lane : Reg (AvxLane K) := fun l => avxLane c newton3 i (mask l) (avxReadsType rest l) (mol (j + l))
      -- `_mm256_movemask_pd(cutoffDummyMask) == 0`
      if ∀ l, (lane l).cutoffDummyMask = false then some s
      else
        some (if newton3 then avxSubForces mask j (fun l => (lane l).f) s.1 else s.1,
          ⟨fun l => s.2.acc l + (lane l).f, fun l => (lane l).virial + s.2.virial l, fun l => (lane l).upot + s.2.upot l⟩)
    else none

/-- The loop over full registers and the masked rest of the first `m` of the second particles, LJFunctorAVX.h:258-274, 377-388. -/
def avxInner (c : LJCfg K) (newton3 : Bool) (i : Mol K) (n : Nat) (mol : Nat → Mol K) (m : Nat) (s : ForceArr K × AvxAcc K) :
    Option (ForceArr K × AvxAcc K) := do
  let s ← (avxStarts m).foldlM (fun s j => avxKernel c newton3 none i n mol j s) s
  if 0 < avxRest m then avxKernel c newton3 (some (avxRest m)) i n mol (m - avxRest m) s else some s

/-- One iteration of the outer loop of `SoAFunctorSingleImpl`, LJFunctorAVX.h:238-296: the second particles are those before `i`. The accumulators of the
forces start with 0 (:252-254), those of the sums go on. -/
def avxSingleOuter (c : LJCfg K) (mol : Nat → Mol K) (n : Nat) (s : ForceArr K × AvxAcc K) (i : Nat) : Option (ForceArr K × AvxAcc K) :=
  if (mol i).own = .dummy then some s
  else do
    let r ← avxInner c true (mol i) n mol i (s.1, { s.2 with acc := fun _ => 0 })
    some (Function.update r.1 i (r.1 i + avxHSumV r.2.acc), r.2)

/-- `_aosThreadData[threadnum] += ..`, LJFunctorAVX.h:298-323, 412-437, 786-811: the sums of the lanes are added to the sums of the thread. -/
def AvxAcc.addTo (a : AvxAcc K) (g : LJGlobals K) : LJGlobals K := g.plus (avxHSumV a.virial) (avxHSum a.upot)

/-- `SoAFunctorSingle(soa, newton3)`, LJFunctorAVX.h:185-191, 214-324: the outer loop runs backwards (:238). -/
def avxSoASingle (c : LJCfg K) (mol : Nat → Mol K) (n : Nat) (force : ForceArr K) (g : LJGlobals K) : Option (ForceArr K × LJGlobals K) :=
  if n = 0 then some (force, g)
  else do
    let r ← (List.range n).reverse.foldlM (avxSingleOuter c mol n) (force, .zero)
    some (r.1, r.2.addTo g)

/-- One iteration of the outer loop of `SoAFunctorPairImpl<newton3>`, LJFunctorAVX.h:357-410. -/
def avxPairOuter (c : LJCfg K) (newton3 : Bool) (mol₁ mol₂ : Nat → Mol K) (n₂ : Nat) (s : (ForceArr K × ForceArr K) × AvxAcc K) (i : Nat) :
    Option ((ForceArr K × ForceArr K) × AvxAcc K) :=
  if (mol₁ i).own = .dummy then some s
  else do
    let r ← avxInner c newton3 (mol₁ i) n₂ mol₂ n₂ (s.1.2, { s.2 with acc := fun _ => 0 })
    some ((Function.update s.1.1 i (s.1.1 i + avxHSumV r.2.acc), r.1), r.2)

/-- `SoAFunctorPair(soa1, soa2, newton3)`, LJFunctorAVX.h:198-205, 327-438. -/
def avxSoAPair (c : LJCfg K) (newton3 : Bool) (mol₁ mol₂ : Nat → Mol K) (n₁ n₂ : Nat) (force₁ force₂ : ForceArr K) (g : LJGlobals K) :
    Option ((ForceArr K × ForceArr K) × LJGlobals K) :=
  if n₁ = 0 ∨ n₂ = 0 then some ((force₁, force₂), g)
  else do
    let r ← (List.range n₁).foldlM (avxPairOuter c newton3 mol₁ mol₂ n₂) ((force₁, force₂), .zero)
    some (r.1, r.2.addTo g)

/-- The variables of `SoAFunctorVerletImpl`: the arrays of the SoA, the buffers for four neighbours (positions, types and ownership; forces) and the
accumulators. -/
structure AvxVerlet (K : Type) where
  force : ForceArr K
  molTmp : Nat → Mol K
  forceTmp : ForceArr K
  acc : AvxAcc K

/-- The buffers after filling, LJFunctorAVX.h:694-705, 737-749: entries that are not filled keep what was in them. -/
def avxFillMols (mol : Nat → Mol K) (block : List Nat) (molTmp : Nat → Mol K) : Nat → Mol K := fun v =>
  match block[v]? with
  | some k => mol k
  | none => molTmp v

/-- The same for the forces, which are only copied with `newton3` (:698-702, :743-747). -/
def avxFillForces (newton3 : Bool) (force : ForceArr K) (block : List Nat) (forceTmp : ForceArr K) : ForceArr K := fun v =>
  match block[v]? with
  | some k => if newton3 then force k else forceTmp v
  | none => forceTmp v

/-- One pass over the neighbours `block`, LJFunctorAVX.h:694-718 (with four of them) and 737-762 (with the rest of them, `rest`): the buffers are filled,
the kernel runs on the buffers, the forces are written back. Entries of the buffers that are not filled keep what was in them. Entries of the
list behind the end of the SoA (of length `n`) are undefined behaviour. -/
def avxVerletBlock (c : LJCfg K) (newton3 : Bool) (rest : Option Nat) (i : Mol K) (mol : Nat → Mol K) (n : Nat) (s : AvxVerlet K) (block : List Nat) :
    Option (AvxVerlet K) :=
  if ∀ k ∈ block, k < n then do
    let r ← avxKernel c newton3 rest i 4 (avxFillMols mol block s.molTmp) 0 (avxFillForces newton3 s.force block s.forceTmp, s.acc)
    some ⟨if newton3 then (List.range block.length).foldl (fun F v => Function.update F (block.getD v 0) (r.1 v)) s.force else s.force,
      avxFillMols mol block s.molTmp, r.1, r.2⟩
  else none

/-- The loop over four neighbours at a time and the rest, LJFunctorAVX.h:674-763. The buffers start with zeros (:666-673), the ownership
`dummy` is 0. -/
def avxVerletLoops (c : LJCfg K) (newton3 : Bool) (mol : Nat → Mol K) (n first : Nat) (list : List Nat) (force : ForceArr K) : Option (AvxVerlet K) := do
  let s ← (avxStarts list.length).foldlM (fun s j => avxVerletBlock c newton3 none (mol first) mol n s ((list.drop j).take 4))
    ⟨force, fun _ => ⟨0, 0, .dummy⟩, fun _ => 0, .zero⟩
  if 0 < avxRest list.length then
    avxVerletBlock c newton3 (some (avxRest list.length)) (mol first) mol n s (list.drop (list.length - avxRest list.length))
  else some s

/-- `SoAFunctorVerlet(soa, indexFirst, neighborList, newton3)`, LJFunctorAVX.h:618-627, 630-814. -/
def avxSoAVerlet (c : LJCfg K) (newton3 : Bool) (mol : Nat → Mol K) (n first : Nat) (list : List Nat) (force : ForceArr K) (g : LJGlobals K) :
    Option (ForceArr K × LJGlobals K) :=
  if n = 0 ∨ list = [] then some (force, g)
  else if (mol first).own = .dummy then some (force, g)
  else do
    let s ← avxVerletLoops c newton3 mol n first list force
    some (Function.update s.force first (s.force first + avxHSumV s.acc.acc), s.acc.addTo g)

variable {P : Type} [DecidableEq P]

/-- A call of a kernel: the SoAs are loaded before and extracted after it, as in `ljKernelCall`. -/
def avxKernelCall (c : LJCfg K) (mol : P → Mol K) (s : LJState P K) : KernelCall P → Option (LJState P K)
  | .aos call => some (ljAoSCall c mol s call)
  | .single _ l => do
    let r ← avxSoASingle c (soaLoadMols l mol) l.length (soaLoadForces l s.force) s.globals
    some ⟨soaExtractForces l r.1 s.force, r.2⟩
  | .pair newton3 l₁ l₂ => do
    let r ← avxSoAPair c newton3 (soaLoadMols l₁ mol) (soaLoadMols l₂ mol) l₁.length l₂.length (soaLoadForces l₁ s.force)
      (soaLoadForces l₂ s.force) s.globals
    some ⟨soaExtractForces l₂ r.1.2 (soaExtractForces l₁ r.1.1 s.force), r.2⟩
  | .verlet newton3 l first list => do
    let r ← avxSoAVerlet c newton3 (soaLoadMols l mol) l.length first list (soaLoadForces l s.force) s.globals
    some ⟨soaExtractForces l r.1 s.force, r.2⟩

/-- Thread `job.1` calls a kernel, as in `ljJob`. -/
def avxJob (c : LJCfg K) (mol : P → Mol K) (s : LJThreads P K) (job : Nat × KernelCall P) : Option (LJThreads P K) := do
  let r ← avxKernelCall c mol ⟨s.force, s.threadData.getD job.1 .zero⟩ job.2
  some ⟨r.force, s.threadData.set job.1 r.globals⟩

/-- `computeInteractions` as in `ljCompute`, with `LJFunctorAVX`. -/
def avxCompute (c : LJCfg K) (threads : Nat) (mol : P → Mol K) (force : P → V3 (Num K)) (jobs : List (Nat × KernelCall P)) :
    Option ((P → V3 (Num K)) × (Num K × V3 (Num K))) := do
  let r ← jobs.foldlM (avxJob c mol) ⟨force, ljInitTraversal threads⟩
  some (r.force, ljEndTraversal r.threadData)

end

end Verif
