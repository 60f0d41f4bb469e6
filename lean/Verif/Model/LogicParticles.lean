import Verif.Model.Iterator
import Verif.Model.BalanceVectors
import Verif.Model.Outcome
/-!
Model of what `LogicHandler` (/repo/src/autopas/LogicHandler.h) does with particles, on top of the `LinkedCells` container
(/repo/src/autopas/containers/linkedCells/LinkedCells.h) and
/repo/src/autopas/containers/LeavingParticleCollector.h.

Not modelled here: the choice of configurations (one container with one cell size factor is used throughout) and the
interactions themselves. Whether a tuner wants a rebuild is an input of `update`.
-/
namespace Verif

/-- What is fixed at construction: box, interaction length, cell size factor, skin per time step, rebuild frequency and the
number of threads (= number of buffers, LogicHandler.h:55-60). -/
structure LHParams where
  bMin : V3 Rat
  bMax : V3 Rat
  il : Rat
  csf : Rat
  skinPerTimestep : Rat
  rebuildFrequency : Nat
  numThreads : Nat

/-- The cell block of the container, LinkedCells.h:67. -/
def LHParams.block (c : LHParams) : CellBlock := CellBlock.rebuild id c.bMin c.bMax c.il c.csf

/-- `getVerletSkin`, /repo/src/autopas/containers/CellBasedParticleContainer.h:78. -/
def LHParams.skin (c : LHParams) : Rat := c.skinPerTimestep * c.rebuildFrequency

/-- The members of `LogicHandler` (LogicHandler.h:880-951) concerned with particles, and the cells of the container. The
atomic counters are integers. -/
structure LHState where
  cells : List (List Particle)
  /-- `_particleBuffer` -/
  bufs : List (List Particle)
  /-- `_haloParticleBuffer` -/
  haloBufs : List (List Particle)
  /-- `_numParticlesOwned` -/
  nOwned : Int
  /-- `_numParticlesHalo` -/
  nHalo : Int
  /-- `_neighborListsAreValid` -/
  valid : Bool
  /-- `_stepsSinceLastListRebuild` -/
  steps : Nat
  /-- `_stepsSinceLastRebuild` of the container -/
  contSteps : Nat
  /-- `_functorCalls > 0` -/
  called : Bool
deriving DecidableEq, Repr

/-- The state after construction: empty container, empty buffers. -/
def LHState.init (c : LHParams) : LHState :=
  { cells := List.replicate c.block.numCells [], bufs := List.replicate c.numThreads []
    haloBufs := List.replicate c.numThreads [], nOwned := 0, nHalo := 0, valid := false, steps := 0, contSteps := 0
    called := false }

/-- `addParticleImpl` and `addHaloParticleImpl`, LinkedCells.h:78-86. -/
def lcAdd (b : CellBlock) (cells : List (List Particle)) (p : Particle) : List (List Particle) :=
  cells.set (b.flatIndexOfPosition p.pos) (cells.getD (b.flatIndexOfPosition p.pos) [] ++ [p])

/-- `_particleBuffer[thread].addParticle(p)` -/
def bufAdd (bufs : List (List Particle)) (thread : Nat) (p : Particle) : List (List Particle) :=
  bufs.set thread (bufs.getD thread [] ++ [p])

/-- `getNearbyHaloCells`, /repo/src/autopas/containers/CellBlock3D.h:189-230. A cell's possible ownerships are `halo` exactly
if it is a halo cell, CellBlock3D.h:405-412. -/
def nearbyHaloCells (b : CellBlock) (pos : V3 Rat) (dist : Rat) : List Nat :=
  let i := b.indexOfPosition id pos
  let lo := b.indexOfPosition id (pos.addScalar (-dist))
  let hi := b.indexOfPosition id (pos.addScalar dist)
  let own := threeToOneD i b.dims
  (if b.cellCanContainHalo own then [own] else []) ++
    (forUp lo.x (hi.x + 1) 1).flatMap fun x => (forUp lo.y (hi.y + 1) 1).flatMap fun y => (forUp lo.z (hi.z + 1) 1).flatMap fun z =>
      if (⟨x, y, z⟩ : V3 Nat) = i then []
      else if b.cellCanContainHalo (threeToOneD ⟨x, y, z⟩ b.dims) then [threeToOneD ⟨x, y, z⟩ b.dims] else []

/-- `checkParticleInCellAndUpdateByID`, /repo/src/autopas/utils/ParticleCellHelpers.h:20-29. -/
def updateById (p : Particle) : List Particle → Option (List Particle)
  | [] => none
  | q :: qs => if q.id = p.id then some (p :: qs) else (updateById p qs).map (q :: ·)

/-- The loop of `updateHaloParticle`, LinkedCells.h:88-98, over the nearby cells. `none`: not found. -/
def updateHaloIn (cells : List (List Particle)) (p : Particle) : List Nat → Option (List (List Particle))
  | [] => none
  | k :: ks =>
    match updateById p (cells.getD k []) with
    | some l => some (cells.set k l)
    | none => updateHaloIn cells p ks

/-- `addParticle`, LogicHandler.h:303-325, called by thread `thread`. -/
def LHState.addParticle (c : LHParams) (s : LHState) (thread : Nat) (p : Particle) : Outcome LHState :=
  if inBoxB p.pos c.bMin c.bMax = false then .throws
  else
    let q := { p with own := Ownership.owned }
    .ok { (if s.valid then { s with bufs := bufAdd s.bufs thread q } else { s with cells := lcAdd c.block s.cells q }) with
      nOwned := s.nOwned + 1 }

/-- `addHaloParticle`, LogicHandler.h:330-356. -/
def LHState.addHaloParticle (c : LHParams) (s : LHState) (thread : Nat) (p : Particle) : Outcome LHState :=
  if inBoxB p.pos c.bMin c.bMax then .throws
  else
    let q := { p with own := Ownership.halo }
    .ok { (if s.valid then
        match updateHaloIn s.cells q (nearbyHaloCells c.block q.pos c.skin) with
        | some cells => { s with cells := cells }
        | none => { s with haloBufs := bufAdd s.haloBufs thread q }
      else { s with cells := lcAdd c.block s.cells q }) with nHalo := s.nHalo + 1 }

/-- What a cleaning loop does with an element: keep it, drop it, or take it out and remember it. -/
inductive Fate
  | keep
  | drop
  | take
deriving DecidableEq

/-- The cleaning loops with swap-delete: LogicHandler.h:128-151 and LinkedCells.h:161-171. Elements from index `i` on are still
to be looked at. Result: the vector, and what was taken out. -/
def purge (verdict : Particle → Fate) (l : List Particle) (i : Nat) : List Particle × List Particle :=
  if h : i < l.length then
    match verdict l[i] with
    | .keep => purge verdict l (i + 1)
    | .drop => purge verdict (swapDelete l i) i
    | .take =>
      let r := purge verdict (swapDelete l i) i
      (r.1, l[i] :: r.2)
  else (l, [])
termination_by l.length - i
decreasing_by
  · omega
  · have hne : l.getLast? ≠ none := by rw [ne_eq, List.getLast?_eq_none_iff]; rintro rfl; simp at h
    cases hz : l.getLast? with
    | none => exact absurd hz hne
    | some z => simp only [swapDelete, hz, if_pos h, List.length_dropLast, List.length_set]; omega
  · have hne : l.getLast? ≠ none := by rw [ne_eq, List.getLast?_eq_none_iff]; rintro rfl; simp at h
    cases hz : l.getLast? with
    | none => exact absurd hz hne
    | some z => simp only [swapDelete, hz, if_pos h, List.length_dropLast, List.length_set]; omega

/-- `collectLeavingParticlesFromBuffer(true)`, LogicHandler.h:111-126: cells of the container, leaving particles. The buffers
end up empty. -/
def bufsToContainer (c : LHParams) (cells : List (List Particle)) (ps : List Particle) : List (List Particle) × List Particle :=
  ps.foldl (fun acc p =>
    if p.own = .dummy then acc
    else if inBoxB p.pos c.bMin c.bMax then (lcAdd c.block acc.1 { p with own := .owned }, acc.2)
    else (acc.1, acc.2 ++ [p])) (cells, [])

/-- The test in `collectLeavingParticlesFromBuffer(false)`, LogicHandler.h:137-150. -/
def bufVerdict (c : LHParams) (p : Particle) : Fate :=
  if p.own = .dummy then .drop else if inBoxB p.pos c.bMin c.bMax = false then .take else .keep

/-- The test in `LinkedCells::updateContainer`, LinkedCells.h:163. -/
def cellVerdict (b : CellBlock) (k : Nat) (p : Particle) : Fate :=
  if inBoxB p.pos (b.cellBox k).1 (b.cellBox k).2 = false then .take else .keep

/-- `deleteHaloParticles`, LinkedCells.h:100. -/
def lcClearHalo (b : CellBlock) (cells : List (List Particle)) : List (List Particle) :=
  (List.range cells.length).map (clearHaloCells b.dims b.x.cpil fun i => cells.getD i [])

/-- `LinkedCells::updateContainer(false)`, LinkedCells.h:141-191. The cells are treated in parallel and the particles that left
their cell are collected per thread; the model uses the order of the cells. -/
def lcUpdateRebuild (c : LHParams) (cells : List (List Particle)) : List (List Particle) × List Particle :=
  let cells := lcClearHalo c.block cells
  let cleaned := (List.range cells.length).map fun k =>
    purge (cellVerdict c.block k) ((cells.getD k []).filter fun p => decide (p.own ≠ .dummy)) 0
  let invalid := cleaned.flatMap Prod.snd
  invalid.foldl (fun acc p =>
    if inBoxB p.pos c.bMin c.bMax then (lcAdd c.block acc.1 p, acc.2) else (acc.1, acc.2 ++ [p])) (cleaned.map Prod.fst, [])

/-- `calculateHaloVolumes`, LeavingParticleCollector.h:32-75. -/
def haloVolumes (c : LHParams) : List (V3 Rat × V3 Rat) :=
  let m := c.skin / 2
  let lH := c.bMin.addScalar (-(c.il + m))
  let uH := c.bMax.addScalar (c.il + m)
  let lI := c.bMin.addScalar m
  let uI := c.bMax.addScalar (-m)
  [ (⟨lH.x, lI.y, lH.z⟩, ⟨lI.x, uI.y, uI.z⟩),
    (⟨uI.x, lI.y, lI.z⟩, ⟨uH.x, uI.y, uH.z⟩),
    (⟨lH.x, lI.y, uI.z⟩, ⟨uI.x, uI.y, uH.z⟩),
    (⟨lI.x, lI.y, lH.z⟩, ⟨uH.x, uI.y, lI.z⟩),
    (lH, ⟨uH.x, lI.y, uH.z⟩),
    (⟨lH.x, uI.y, lH.z⟩, uH) ]

/-- Owned and outside the box: to be handed back, LeavingParticleCollector.h:111. -/
def isLeaving (c : LHParams) (p : Particle) : Bool := decide (p.own ≠ .halo) && !inBoxB p.pos c.bMin c.bMax

/-- The loop body, LeavingParticleCollector.h:107-114. -/
def markBody (c : LHParams) : List Particle → Particle → Option Particle := fun _ p =>
  if p.own = .halo then some { p with own := .dummy }
  else if isLeaving c p then some { p with own := .dummy }
  else some p

/-- One thread's loop over one of the volumes, LeavingParticleCollector.h:105-115. -/
def collectOne (c : LHParams) (contSteps : Nat) (cells : List (List Particle)) (vol : V3 Rat × V3 Rat) (thread : Nat) :
    Option (List (List Particle) × List Particle) :=
  let cfg := lcRegionCfg c.block c.bMin c.bMax c.il (c.skinPerTimestep * contSteps) vol.1 vol.2 (ibOwned ||| ibHalo) c.numThreads thread
  (iterLoop cfg (markBody c) (cells.flatten.length + 1) [] (iterBegin cfg cells [])).map fun r =>
    (r.2.cells, (r.1.map Visit.before).filter (isLeaving c))

/-- `collectParticlesAndMarkNonOwnedAsDummy`, LeavingParticleCollector.h:84-118. Every thread goes through the six volumes
without waiting for the others; `order` is the order in which these loops take place. (The loops are taken as atomic; two
loops never change the same particle, since the first to come makes it a dummy that the others skip.) -/
def collectLeaving (c : LHParams) (contSteps : Nat) (order : List ((V3 Rat × V3 Rat) × Nat)) (cells : List (List Particle)) :
    Option (List (List Particle) × List Particle) :=
  order.foldl (fun acc job => acc.bind fun a => (collectOne c contSteps a.1 job.1 job.2).map fun r => (r.1, a.2 ++ r.2))
    (some (cells, []))

/-- `neighborListsAreValid`, LogicHandler.h:984-997. -/
def listsStillValid (c : LHParams) (s : LHState) (expire : Bool) : Bool :=
  s.valid && !(decide (c.rebuildFrequency ≤ s.steps) || expire)

/-- The counting part of `updateContainer`, LogicHandler.h:161-177. -/
def LHState.bump (s : LHState) (valid : Bool) : LHState :=
  if s.called then
    let steps := (if valid then s.steps else 0) + 1
    { s with valid := valid, steps := steps, contSteps := steps }
  else { s with valid := valid }

/-- `updateContainer`, LogicHandler.h:160-192. `none`: a loop did not end. -/
def LHState.updateContainer (c : LHParams) (s : LHState) (expire : Bool) (order : List ((V3 Rat × V3 Rat) × Nat)) :
    Option (LHState × List Particle) :=
  let s := s.bump (listsStillValid c s expire)
  if s.valid then
    let cleaned := s.bufs.map fun l => purge (bufVerdict c) l 0
    (collectLeaving c s.contSteps order s.cells).map fun r =>
      let leaving := r.2 ++ cleaned.flatMap Prod.snd
      ({ s with cells := r.1, bufs := cleaned.map Prod.fst, haloBufs := s.haloBufs.map fun _ => []
                nOwned := s.nOwned - leaving.length, nHalo := 0 }, leaving)
  else
    let a := bufsToContainer c s.cells s.bufs.flatten
    let r := lcUpdateRebuild c a.1
    let leaving := r.2 ++ a.2
    some ({ s with cells := r.1, bufs := s.bufs.map fun _ => [], haloBufs := s.haloBufs.map fun _ => []
                   nOwned := s.nOwned - leaving.length, nHalo := 0 }, leaving)

/-- `deleteAllParticles`, LogicHandler.h:361-369. -/
def LHState.deleteAll (s : LHState) : LHState :=
  { s with cells := s.cells.map fun _ => [], bufs := s.bufs.map fun _ => [], haloBufs := s.haloBufs.map fun _ => []
           nOwned := 0, nHalo := 0, valid := false }

/-- The effect of `computeInteractions` on the storage: afterwards the lists are valid (LogicHandler.h:1041-1101), the buffers
have been balanced (remainder traversal, LogicHandler.h:1127-1140), and at least one functor call was counted. -/
def LHState.compute (s : LHState) : LHState :=
  { s with valid := true, called := true, bufs := balanceVectors s.bufs, haloBufs := balanceVectors s.haloBufs }

/-- The non-empty buffers, in order: `gatherAdditionalVectors`, LogicHandler.h:437-459. -/
def nonEmpty (bufs : List (List Particle)) : List (List Particle) := bufs.filter fun l => decide (l ≠ [])

/-- Writing the gathered buffers back to their places (the iterator works on them through pointers). -/
def putBack : List (List Particle) → List (List Particle) → List (List Particle)
  | [], _ => []
  | b :: bs, vs =>
    if b = [] then [] :: putBack bs vs
    else match vs with
      | [] => b :: putBack bs []
      | v :: vs => v :: putBack bs vs

/-- A user loop `for (auto iter = autoPas.begin(behavior); iter.isValid(); ++iter) if (d(*iter)) autoPas.deleteParticle(iter);`
in one thread: /repo/src/autopas/AutoPasImpl.h:286-298 with `decreaseParticleCounter`, LogicHandler.h:399-405. The number of
rounds is enough for every such loop (`deleteLoop_spec`). -/
def LHState.deleteLoop (c : LHParams) (s : LHState) (behavior : Nat) (d : Particle → Bool) : Option LHState :=
  let own := if behavior &&& ibOwned ≠ 0 then nonEmpty s.bufs else []
  let halo := if behavior &&& ibHalo ≠ 0 then nonEmpty s.haloBufs else []
  let cfg := lcIterCfg c.block behavior 1 0
  let n := s.cells.flatten.length + (own ++ halo).flatten.length
  (iterLoop cfg (fun _ p => if d p then none else some p) ((n + 1) * (n + 1)) [] (iterBegin cfg s.cells (own ++ halo))).map fun r =>
    let deleted := r.1.filter fun v => v.after.isNone
    { s with
      cells := r.2.cells
      bufs := if behavior &&& ibOwned ≠ 0 then putBack s.bufs (r.2.vecs.take own.length) else s.bufs
      haloBufs := if behavior &&& ibHalo ≠ 0 then putBack s.haloBufs (r.2.vecs.drop own.length) else s.haloBufs
      nOwned := s.nOwned - (deleted.filter fun v => decide (v.before.own = .owned)).length
      nHalo := s.nHalo - (deleted.filter fun v => decide (v.before.own ≠ .owned)).length }

/-- The user moves the owned particles, e.g. in a loop over an iterator (C30 and C33 show that such a loop reaches each of them
exactly once). -/
def LHState.move (s : LHState) (f : Particle → V3 Rat) : LHState :=
  let g : Particle → Particle := fun p => if p.own = .owned then { p with pos := f p } else p
  { s with cells := s.cells.map (List.map g), bufs := s.bufs.map (List.map g), haloBufs := s.haloBufs.map (List.map g) }

end Verif
