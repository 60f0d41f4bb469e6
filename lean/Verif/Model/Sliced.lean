import Verif.Model.LCC04
/-!
Model of the sliced traversals in /repo/src/autopas/containers/cellTraversals/: SlicedBasedTraversal.h,
SlicedLockBasedTraversal.h, SlicedC02BasedTraversal.h, SlicedBalancedBasedTraversal.h and of their users
linkedCells/traversals/LCSliced{,C02,Balanced}Traversal.h.

The lock based traversal is a transition system: every slice is a thread with a list of remaining actions (acquire a
lock, process a layer of base cells, release a lock); any unfinished slice may take the next step.
-/
namespace Verif

/-- `v[i]` of a `std::array<T, 3>`. -/
def V3.get {α : Type _} (v : V3 α) (i : Nat) : α := if i = 0 then v.x else if i = 1 then v.y else v.z

/-- Index of the last largest entry (`std::minmax_element(...).second`), SlicedBasedTraversal.h:192-193. -/
def longestAxis (d : V3 Nat) : Nat := if d.x ≤ d.z ∧ d.y ≤ d.z then 2 else if d.x ≤ d.y then 1 else 0

/-- Index of the first smallest entry (`std::minmax_element(...).first`), SlicedBasedTraversal.h:192, 194. -/
def shortestAxis (d : V3 Nat) : Nat := if d.x ≤ d.y ∧ d.x ≤ d.z then 0 else if d.y ≤ d.z then 1 else 2

/-- `_dimsPerLength[1] = 3 - (_dimsPerLength[0] + _dimsPerLength[2])`, SlicedBasedTraversal.h:195. -/
def mediumAxis (d : V3 Nat) : Nat := 3 - (longestAxis d + shortestAxis d)

/-- The loop of SlicedBasedTraversal.h:83-87: `k` is `remSlices - i`, the list is the tail of `_sliceThickness`
from index `i` on. -/
def addRest : Nat → Nat → List Nat → List Nat
  | k + 1, rest, t :: l => (t + rest / (k + 1)) :: addRest k (rest - rest / (k + 1)) l
  | _, _, l => l

/-- `_sliceThickness.back() -= _overlapLongestAxis` if `_spaciallyForward`, SlicedBasedTraversal.h:89-92. The real
subtraction is unsigned; the theorems show that it does not wrap. -/
def shortenLast (forward : Bool) (ov : Nat) (l : List Nat) : List Nat :=
  if forward then l.dropLast ++ (l.getLast?.map (· - ov)).toList else l

/-- `initSliceThickness(minSliceThickness)`, SlicedBasedTraversal.h:74-93; `n` cells along the longest axis. -/
def sliceThickness (forward : Bool) (n minThickness ov : Nat) : List Nat :=
  let numSlices := n / minThickness
  if numSlices < 1 then [] else
    let rest := n - minThickness * numSlices
    shortenLast forward ov (addRest (min rest numSlices) rest (List.replicate numSlices minThickness))

/-- 64 bit unsigned subtraction. -/
def sub64 (a b : Nat) : Nat := (a + 2 ^ 64 - b % 2 ^ 64) % 2 ^ 64

/-- `auto lastLoad = 0` is an `int` (SlicedBalancedBasedTraversal.h:91): the value of the `unsigned long` `x` after
being stored in it and promoted back to `unsigned long`. -/
def throughInt (x : Nat) : Nat := if x % 2 ^ 32 < 2 ^ 31 then x % 2 ^ 32 else x % 2 ^ 32 + (2 ^ 64 - 2 ^ 32)

/-- Distance of two unsigned values, SlicedBalancedBasedTraversal.h:104. -/
def absDiff (a b : Nat) : Nat := if a > b then a - b else b - a

/-- The `while` loop of SlicedBalancedBasedTraversal.h:98-108, started with thickness `t`; `loads` is the prefix-summed
load array. -/
def balancedGrow (loads : Nat → Nat) (n total avg lastLoad t : Nat) : Nat :=
  if _h : total + t + 1 < n ∧ sub64 (loads (total + t - 1)) lastLoad < avg then
    if absDiff avg (sub64 (loads (total + t - 1)) lastLoad) < absDiff avg (sub64 (loads (total + t)) lastLoad) then t
    else balancedGrow loads n total avg lastLoad (t + 1)
  else t
termination_by n - t
decreasing_by omega

/-- The `for` loop over `s` of SlicedBalancedBasedTraversal.h:92-127; `k` is `numSlices - s`, `acc` is
`_sliceThickness`. `none` is the out-of-bounds access `_sliceThickness[-1]` of line 112 for `s = 0`.
`unsigned int` values are assumed not to exceed 32 bits. -/
def balancedLoop (loads : Nat → Nat) (n minThickness : Nat) : Nat → Nat → Nat → Nat → List Nat → Option (List Nat)
  | 0, _, _, _, acc => some acc
  | k + 1, total, avg, lastLoad, acc =>
    let t := if k = 0 then n - total else balancedGrow loads n total avg lastLoad minThickness
    if total + t > n ∨ t < minThickness then
      acc.getLast?.map fun l => acc.dropLast ++ [l + (n - total)]
    else
      balancedLoop loads n minThickness k (total + t)
        (if k = 0 then avg else sub64 (loads (n - 1)) (loads (total + t - 1)) / k)
        (if k = 0 then lastLoad else throughInt (loads (total + t - 1))) (acc ++ [t])

/-- `initSliceThickness` of SlicedBalancedBasedTraversal.h:49-161 with `threads = autopas_get_max_threads()`; logging
(:128-155) is left out. -/
def balancedSliceThickness (loads : Nat → Nat) (forward : Bool) (n minThickness ov threads : Nat) : Option (List Nat) :=
  (balancedLoop loads n minThickness threads 0 (loads (n - 1) / threads) 0 []).map (shortenLast forward ov)

/-- Start layer of a slice, SlicedLockBasedTraversal.h:94-97, SlicedC02BasedTraversal.h:93-96. -/
def sliceStart (thick : List Nat) (slice : Nat) : Nat := (thick.take slice).sum

/-- `overLapps23`, SlicedLockBasedTraversal.h:70-76, SlicedC02BasedTraversal.h:82-86. -/
def overlaps23 (forward : Bool) (ov : Nat) : Nat := if forward then ov else 0

/-- `idArray` of SlicedLockBasedTraversal.h:118-121: component `i` of the base cell. -/
def idArrayAt (dims : V3 Nat) (long medium short i : Nat) : Nat :=
  if i = shortestAxis dims then short else if i = mediumAxis dims then medium else if i = longestAxis dims then long else 0

/-- Base cells of one layer, SlicedLockBasedTraversal.h:114-125, SlicedC02BasedTraversal.h:100-109. -/
def layerBases (forward : Bool) (dims ov : V3 Nat) (layer : Nat) : List (V3 Nat) :=
  (forUp 0 (dims.get (mediumAxis dims) - overlaps23 forward (ov.get (mediumAxis dims))) 1).flatMap fun medium =>
    (forUp 0 (dims.get (shortestAxis dims) - overlaps23 forward (ov.get (shortestAxis dims))) 1).map fun short =>
      ⟨idArrayAt dims layer medium short 0, idArrayAt dims layer medium short 1, idArrayAt dims layer medium short 2⟩

/-- Layers of a slice in the order they are processed. -/
def sliceLayers (thick : List Nat) (slice : Nat) : List Nat :=
  (List.range (thick.getD slice 0)).map (sliceStart thick slice + ·)

/-- `cSlicedTraversal`, SlicedC02BasedTraversal.h:76-113: two colours of slices, the base cells of each slice. -/
def slicedC02Packs (forward : Bool) (dims ov : V3 Nat) (thick : List Nat) : List (List (List (V3 Nat))) :=
  [0, 1].map fun offset => (forUp offset thick.length 2).map fun slice =>
    (sliceLayers thick slice).flatMap (layerBases forward dims ov)

/-- `LCSlicedC02Traversal`, LCSlicedC02Traversal.h:66-73, with the slices of SlicedC02BasedTraversal.h:66-71. -/
def lcSlicedC02 (dims : V3 Nat) (cl : V3 Rat) (il : Rat) : List (List (List CellOp)) :=
  let ov := (overlapOf il cl).toNat
  let n := dims.get (longestAxis dims)
  let o := ov.get (longestAxis dims)
  packOps dims cl il (slicedC02Packs true dims ov (sliceThickness true n o o))

/-- What the thread working on a slice does: acquire a lock, process a layer, release a lock. -/
inductive SliceAct where
  | lock (l : Nat)
  | process (layer : Nat)
  | unlock (l : Nat)
deriving DecidableEq, Repr

/-- SlicedLockBasedTraversal.h:100-105: all but the first slice lock their starting layers. -/
def startLocks (ov slice : Nat) : List SliceAct :=
  if slice > 0 then (List.range ov).map fun i => .lock ((slice - 1) * ov + i) else []

/-- SlicedLockBasedTraversal.h:111-113: lock requested before layer `off` of the slice. The test
`dimSlice >= lastLayer - overlap` is unsigned; it does not wrap if the slice is at least `ov` thick. -/
def endLock (ov numSlices t slice off : Nat) : List SliceAct :=
  if slice ≠ numSlices - 1 ∧ off + ov ≥ t then [.lock ((slice + 1) * ov - (t - off))] else []

/-- SlicedLockBasedTraversal.h:126-142: locks released after layer `off` of the slice. -/
def releases (ov numSlices t slice off : Nat) : List SliceAct :=
  if slice > 0 ∧ off < ov then
    .unlock ((slice - 1) * ov + off) ::
      (if off + 1 = t then (forUp (off + 1) ov 1).map fun i => .unlock ((slice - 1) * ov + i) else [])
  else if slice ≠ numSlices - 1 ∧ off + 1 = t then (List.range ov).map fun i => .unlock (slice * ov + i) else []

/-- One iteration of the loop over `sliceOffset`, SlicedLockBasedTraversal.h:107-143. -/
def layerActs (ov numSlices start t slice off : Nat) : List SliceAct :=
  endLock ov numSlices t slice off ++ .process (start + off) :: releases ov numSlices t slice off

/-- Body of the parallel loop over slices, SlicedLockBasedTraversal.h:92-145 (without timers). -/
def sliceProgram (ov : Nat) (thick : List Nat) (slice : Nat) : List SliceAct :=
  startLocks ov slice ++
    (List.range (thick.getD slice 0)).flatMap
      (layerActs ov thick.length (sliceStart thick slice) (thick.getD slice 0) slice)

/-- State of the lock based traversal: the remaining actions of every slice and the owner of every lock
(`AutoPasLock`, /repo/src/autopas/utils/WrapOpenMP.h). -/
structure SlicedState where
  rest : Nat → List SliceAct
  owner : Nat → Option Nat

/-- Before the parallel loop: nothing has been done, all locks are free (SlicedLockBasedTraversal.h:66-68). -/
def slicedInit (ov : Nat) (thick : List Nat) : SlicedState :=
  ⟨fun s => if s < thick.length then sliceProgram ov thick s else [], fun _ => none⟩

/-- One step of slice `s`. Acquiring a lock needs it to be free. `process` marks the end of processing a layer: while
`process d` is the next action of a slice, the slice may be working on layer `d`. Releasing a lock sets it free. -/
inductive SlicedStep (s : Nat) : SlicedState → SlicedState → Prop where
  | lock {σ : SlicedState} {l : Nat} {r : List SliceAct} (h : σ.rest s = .lock l :: r) (free : σ.owner l = none) :
      SlicedStep s σ ⟨Function.update σ.rest s r, Function.update σ.owner l (some s)⟩
  | process {σ : SlicedState} {d : Nat} {r : List SliceAct} (h : σ.rest s = .process d :: r) :
      SlicedStep s σ ⟨Function.update σ.rest s r, σ.owner⟩
  | unlock {σ : SlicedState} {l : Nat} {r : List SliceAct} (h : σ.rest s = .unlock l :: r) :
      SlicedStep s σ ⟨Function.update σ.rest s r, Function.update σ.owner l none⟩

/-- States reachable under some interleaving of the slices. -/
inductive SlicedReach (ov : Nat) (thick : List Nat) : SlicedState → Prop where
  | init : SlicedReach ov thick (slicedInit ov thick)
  | step {σ σ' : SlicedState} {s : Nat} (h : SlicedReach ov thick σ) (st : SlicedStep s σ σ') : SlicedReach ov thick σ'

/-- Layers processed by the slices of a lock based traversal. -/
def processed : List SliceAct → List Nat
  | [] => []
  | .process d :: l => d :: processed l
  | _ :: l => processed l

/-- `LCSlicedTraversal`, LCSlicedTraversal.h:67-74: the cell functor calls of every slice (all slices form one parallel
loop). -/
def lcSliced (dims : V3 Nat) (cl : V3 Rat) (il : Rat) (thick : List Nat) : List (List (List CellOp)) :=
  let ov := (overlapOf il cl).toNat
  packOps dims cl il [(List.range thick.length).map fun slice =>
    (processed (sliceProgram (ov.get (longestAxis dims)) thick slice)).flatMap (layerBases true dims ov)]

end Verif
