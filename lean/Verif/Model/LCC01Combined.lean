import Verif.Model.LCInteract
import Verif.Model.TripleTraversal
import Verif.Model.NeighborListsBuffer
/-!
Model of the traversal `lc_c01_combined_SoA`: /repo/src/autopas/containers/linkedCells/traversals/LCC01Traversal.h with
`combineSoA = true`. Each thread owns a ring of `2 * overlap[0] + 1` SoA buffers ("slices"). While it moves along x, it shifts the ring
by one instead of filling all buffers anew, and the base cell interacts with whole buffers.

Simplifications: a SoA buffer is the list of its particles (positions and ownership are copied, LCC01Traversal.h:193-196, :407-408; forces are
not needed since nothing is written to the buffers without Newton 3).
-/
namespace Verif

section
variable {P : Type} [Inhabited P]

/-- What a thread keeps between base cells: `_currentSlices[threadID * _cacheOffset]` and `_combinationSlices[threadID]`,
LCC01Traversal.h:394-396. -/
structure C01Ring (P : Type) where
  current : Nat
  slots : List (List P)

/-- The SoA buffers of the cells at these offsets one after the other (`appendNeeded`), LCC01Traversal.h:403-408. -/
def c01Append (cells : List (PCell P)) (dims : V3 Nat) (base : Int) (offsets : List (Int × Int × Int)) : List P :=
  offsets.flatMap fun o => (cellAt cells (base + c01Flat dims o)).particles

/-- Number of particles in the cells at these offsets, LCC01Traversal.h:415-420. -/
def c01Size (cells : List (PCell P)) (dims : V3 Nat) (base : Int) (offsets : List (Int × Int × Int)) : Nat :=
  (offsets.map fun o => (cellAt cells (base + c01Flat dims o)).particles.length).sum

/-- The values of `slice` in `for (slice = start; slice != stop; ++slice %= n)`, LCC01Traversal.h:414, :424. The first argument is fuel:
`n` rounds are enough for every reachable `stop`. -/
def ringUntil (n stop : Nat) : Nat → Nat → List Nat
  | 0, _ => []
  | fuel + 1, s => if s = stop then [] else s :: ringUntil n stop fuel ((s + 1) % n)

/-- The buffers at the first base cell of a row, LCC01Traversal.h:399-409. -/
def c01RingInit (cells : List (PCell P)) (dims : V3 Nat) (slices : C01Slices) (n : Nat) (base : Int) : C01Ring P :=
  ⟨0, (List.range n).map fun k => c01Append cells dims base (slices k)⟩

/-- The first loop of the shift, LCC01Traversal.h:412-422: buffers left of the new base cell shrink. -/
def c01RingReduce (cells : List (PCell P)) (dims : V3 Nat) (slices : C01Slices) (base : Int)
    (order : List (Nat × Nat)) (slots : List (List P)) : List (List P) :=
  order.foldl (fun s (e : Nat × Nat) => s.set e.1 (vectorResize (s.getD e.1 []) (c01Size cells dims base (slices e.2)) default)) slots

/-- The second loop of the shift, LCC01Traversal.h:423-432: buffers right of the old base cell grow. -/
def c01RingExtend (cells : List (PCell P)) (dims : V3 Nat) (slices : C01Slices) (n : Nat) (base : Int)
    (order : List (Nat × Nat)) (slots : List (List P)) : List (List P) :=
  order.foldl (fun s (e : Nat × Nat) => s.set e.1 (s.getD e.1 [] ++
    c01Append cells dims base ((slices e.2).drop (slices ((e.2 + 1) % n)).length))) slots

/-- The shift of the ring at every other base cell of a row, LCC01Traversal.h:410-444. -/
def c01RingShift (cells : List (PCell P)) (dims : V3 Nat) (slices : C01Slices) (ovx n : Nat) (base : Int) (r : C01Ring P) : C01Ring P :=
  let mid := (r.current + ovx + 1) % n
  let reduce := ringUntil n mid n ((r.current + 1) % n)
  let extend := ringUntil n r.current n mid
  let slots := c01RingReduce cells dims slices base reduce.zipIdx r.slots
  let slots := c01RingExtend cells dims slices n base (extend.zipIdx reduce.length) slots
  let slots := slots.set r.current (c01Append cells dims base (slices (n - 1)))
  ⟨(r.current + 1) % n, slots⟩

/-- "calculate all interactions", LCC01Traversal.h:446-461. The buffers are `FullParticleCell`s that were never told which particles they
can hold, so they count as cells that can hold owned particles (/repo/src/autopas/cells/ParticleCell.h:186-193). -/
def c01RingCalls (f : CellFunctorCfg P) (cells : List (PCell P)) (ovx n : Nat) (base : Int) (r : C01Ring P) : List (PairCall P) :=
  let baseCell := cellAt cells base
  (List.range n).flatMap fun slice =>
    if slice = (r.current + ovx) % n then
      soaPair false baseCell.particles ((r.slots.getD slice []).drop baseCell.particles.length) ++ f.cell baseCell
    else f.cellPair ⟨0, 0, 0⟩ baseCell ⟨r.slots.getD slice [], true⟩

/-- `processBaseCellPairwise` with combined SoA for the base cell `b`, LCC01Traversal.h:384-461. -/
def c01CombinedCell (f : CellFunctorCfg P) (cells : List (PCell P)) (dims : V3 Nat) (cl : V3 Rat) (il : Rat) (r : C01Ring P)
    (b : V3 Nat) : C01Ring P × List (PairCall P) :=
  let ovx := (overlapOf il cl).x.toNat
  let n := 2 * ovx + 1
  let slices := c01Slices dims cl il
  let base : Int := threeToOneD b dims
  let r' := if b.x = ovx then c01RingInit cells dims slices n base else c01RingShift cells dims slices ovx n base r
  (r', c01RingCalls f cells ovx n base r')

/-- The base cells that one thread processes, one after the other. -/
def c01CombinedThread (f : CellFunctorCfg P) (cells : List (PCell P)) (dims : V3 Nat) (cl : V3 Rat) (il : Rat) :
    C01Ring P → List (V3 Nat) → List (PairCall P)
  | _, [] => []
  | r, b :: bs =>
    let (r', calls) := c01CombinedCell f cells dims cl il r b
    calls ++ c01CombinedThread f cells dims cl il r' bs

end

/-- The base cells of row `(y, z)` in the order of the innermost loop, C01BasedTraversal.h:54-62 and
/repo/src/autopas/containers/cellTraversals/ColorBasedTraversal.h:150-158. With `collapse(2)` a row is never split between threads. -/
def c01Row (dims : V3 Nat) (ov : V3 Nat) (row : Nat × Nat) : List (V3 Nat) :=
  (forUp ov.x (dims.sub ov).x 1).map fun x => ⟨x, row.1, row.2⟩

/-- All rows `(y, z)`: the iterations of the collapsed loops, ColorBasedTraversal.h:150-152. -/
def c01Rows (dims ov : V3 Nat) : List (Nat × Nat) :=
  (forUp ov.z (dims.sub ov).z 1).flatMap fun z => (forUp ov.y (dims.sub ov).y 1).map fun y => (y, z)

/-- `traverseParticles` of the combined traversal when thread `t` gets the rows `threads[t].2` and finds the buffers `threads[t].1` left by
an earlier traversal, LCC01Traversal.h:517-534. -/
def lcC01Combined {P : Type} [Inhabited P] (f : CellFunctorCfg P) (cells : List (PCell P)) (dims : V3 Nat) (cl : V3 Rat) (il : Rat)
    (threads : List (C01Ring P × List (Nat × Nat))) : List (PairCall P) :=
  threads.flatMap fun t => c01CombinedThread f cells dims cl il t.1 (t.2.flatMap (c01Row dims (overlapOf il cl).toNat))

end Verif
