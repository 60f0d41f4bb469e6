import Verif.Model.LJFunctor
import Verif.Model.WholeInteractions
/-!
`computeInteractions` with the Lennard-Jones functor: the calls of its four kernels that the traversals make, spread over threads, and the
sums of `endTraversal`.

Simplification: the SoA buffers of cells are loaded before and extracted after every kernel call instead of once per traversal
(`loadDataLayout`, /repo/src/autopas/containers/cellTraversals/ColorBasedTraversal.h:67, SlicedBasedTraversal.h:135; SoALoader and SoAExtractor,
/repo/src/autopas/LogicHandler.h:1272-1277, 1178-1181). Every particle is in one buffer, so that this makes no difference.
-/
namespace Verif

section
variable {P : Type}

/-- A call of one of the four kernels: `AoSFunctor`, `SoAFunctorSingle`, `SoAFunctorPair`, `SoAFunctorVerlet`. -/
inductive KernelCall (P : Type)
  | aos (call : PairCall P)
  | single (newton3 : Bool) (l : List P)
  | pair (newton3 : Bool) (l₁ l₂ : List P)
  | verlet (newton3 : Bool) (l : List P) (first : Nat) (list : List Nat)

/-- The AoS calls a kernel call stands for (/repo/src/autopas/baseFunctors/PairwiseFunctor.h:35-106). -/
def KernelCall.calls [Inhabited P] : KernelCall P → List (PairCall P)
  | .aos call => [call]
  | .single newton3 l => soaSingle newton3 l
  | .pair newton3 l₁ l₂ => soaPair newton3 l₁ l₂
  | .verlet newton3 l first list => list.map fun j => ⟨l.getD first default, l.getD j default, newton3⟩

/-- `CellFunctor::processCell`, /repo/src/autopas/baseFunctors/CellFunctor.h:141-166, 321-330, as kernel calls. -/
def CellFunctorCfg.cellKernels (f : CellFunctorCfg P) (cell : PCell P) : List (KernelCall P) :=
  if f.soa then
    if cell.particles.isEmpty then []
    else if !cell.hasOwned then []
    else [.single f.newton3 cell.particles]
  else (f.cell cell).map .aos

/-- `CellFunctor::processCellPair`, CellFunctor.h:168-204, 303-319, as kernel calls. -/
def CellFunctorCfg.cellPairKernels (f : CellFunctorCfg P) (dir : V3 Rat) (cell1 cell2 : PCell P) : List (KernelCall P) :=
  if f.soa then
    if cell1.particles.isEmpty ∨ cell2.particles.isEmpty then []
    else if (cell1.hasOwned = false ∧ f.newton3 = false ∧ f.bidirectional = false) ∨
        (cell1.hasOwned = false ∧ cell2.hasOwned = false) then []
    else .pair f.newton3 cell1.particles cell2.particles ::
      (if f.newton3 = false ∧ f.bidirectional = true then [.pair false cell2.particles cell1.particles] else [])
  else (f.cellPair dir cell1 cell2).map .aos

/-- The kernel calls of one call of the cell functor. -/
def CellFunctorCfg.opKernels (f : CellFunctorCfg P) (cells : List (PCell P)) : CellOp → List (KernelCall P)
  | .self i => f.cellKernels (cellAt cells i)
  | .pair i j dir => f.cellPairKernels dir (cellAt cells i) (cellAt cells j)

/-- The kernel calls of a traversal. -/
def CellFunctorCfg.runKernels (f : CellFunctorCfg P) (cells : List (PCell P)) (ops : List (List (List CellOp))) : List (KernelCall P) :=
  ops.flatten.flatten.flatMap (f.opKernels cells)

/-- `remainderHelperBufferBuffer`, LogicHandler.h:1268-1298, as kernel calls (:1290, :1294). -/
def remBufferBufferKernels (pb : List (List P)) : List (KernelCall P) :=
  (List.range pb.length).flatMap fun i => (List.range pb.length).map fun jj =>
    let j := (i + jj) % pb.length
    if i = j then .single true (pb.getD i []) else .pair false (pb.getD i []) (pb.getD j [])

/-- `remainderHelperBufferHaloBuffer`, LogicHandler.h:1302-1316, as kernel calls. -/
def remBufferHaloBufferKernels (pb hb : List (List P)) : List (KernelCall P) :=
  (List.range hb.length).flatMap fun off => (List.range pb.length).map fun i =>
    .pair false (pb.getD i []) (hb.getD ((i + off) % hb.length) [])

/-- `computeRemainderInteractions2B`, LogicHandler.h:1127-1188, as kernel calls: step 1 uses the AoS kernel (:1228-1256), the other steps
the SoA kernels. -/
def remainder2BKernels (pos : P → V3 Rat) (own : P → Ownership) (newton3 : Bool) (cutoff : Rat) (cont : List P) (pb hb : List (List P)) :
    List (KernelCall P) :=
  let pb := balanceVectors pb
  let hb := balanceVectors hb
  (remBufferContainer pos own newton3 cutoff cont pb hb).map .aos ++ remBufferBufferKernels pb ++ remBufferHaloBufferKernels pb hb

/-- `computeInteractions`, LogicHandler.h:1041-1101, as kernel calls. -/
def LHState.kernels (c : LHParams) (s : LHState) (t : LCTraversal) (f : CellFunctorCfg Slot) : List (KernelCall Slot) :=
  f.runKernels (lcCells c.block (slotsOf 0 s.cells)) (t.ops c.block.dims c.block.cellLength c.il) ++
    remainder2BKernels Slot.pos Slot.own f.newton3 c.cutoff (slotsOf 0 s.cells).flatten (slotsOf 1 s.bufs) (slotsOf 2 s.haloBufs)

end

section
variable {K : Type} [Field K] [LinearOrder K] {P : Type} [DecidableEq P]

/-- A call of a kernel of the Lennard-Jones functor. -/
def ljKernelCall (c : LJCfg K) (vecsize : Nat) (mol : P → Mol K) (s : LJState P K) : KernelCall P → LJState P K
  | .aos call => ljAoSCall c mol s call
  | .single _ l => ljCellSoA c mol l s
  | .pair newton3 l₁ l₂ => ljCellPairSoA c newton3 mol l₁ l₂ s
  | .verlet newton3 l first list => ljListSoA c newton3 vecsize mol l first list s

/-- The forces and the sums of every thread (`_aosThreadDataGlobals`, LJFunctor.h:1213). -/
structure LJThreads (P K : Type) where
  force : P → V3 (Num K)
  threadData : List (LJGlobals K)

/-- Thread `job.1` calls a kernel; the kernel adds to the sums of that thread (`autopas_get_thread_num()`, e.g. LJFunctor.h:128, 359). -/
def ljJob (c : LJCfg K) (vecsize : Nat) (mol : P → Mol K) (s : LJThreads P K) (job : Nat × KernelCall P) : LJThreads P K :=
  let r := ljKernelCall c vecsize mol ⟨s.force, s.threadData.getD job.1 .zero⟩ job.2
  ⟨r.force, s.threadData.set job.1 r.globals⟩

/-- `functor.initTraversal()`, the kernel calls in the order in which they happen, each with the thread that makes it,
`functor.endTraversal()` (LogicHandler.h:1072-1086). The result is the forces, `_potentialEnergySum` and `_virialSum`. -/
def ljCompute (c : LJCfg K) (vecsize threads : Nat) (mol : P → Mol K) (force : P → V3 (Num K)) (jobs : List (Nat × KernelCall P)) :
    (P → V3 (Num K)) × (Num K × V3 (Num K)) :=
  let r := jobs.foldl (ljJob c vecsize mol) ⟨force, ljInitTraversal threads⟩
  (r.force, ljEndTraversal r.threadData)

end

end Verif
