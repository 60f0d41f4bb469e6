import Verif.Model.LCInteract
import Verif.Model.Remainder
import Verif.Model.LogicParticles
/-!
`LogicHandler::computeInteractions` (/repo/src/autopas/LogicHandler.h:1041-1101) for pairwise functors on the linked-cells container: the
container traversal followed by the remainder traversal over the insertion buffers.

A functor call gets references to particle objects, and two objects can hold the same values. So the calls are about `Slot`s: a place in
the storage with the particle in it.
-/
namespace Verif

/-- A place in the storage and the particle there. `area` is 0 for the cells of the container, 1 for the insertion buffers and 2 for the
halo insertion buffers. -/
structure Slot where
  area : Nat
  vector : Nat
  index : Nat
  particle : Particle
deriving DecidableEq, Repr

/-- `getR()` -/
def Slot.pos (x : Slot) : V3 Rat := x.particle.pos

/-- `getOwnershipState()` -/
def Slot.own (x : Slot) : Ownership := x.particle.own

/-- The places of a family of vectors. -/
def slotsOf (area : Nat) (ls : List (List Particle)) : List (List Slot) :=
  ls.mapIdx fun k l => l.mapIdx fun i p => ⟨area, k, i, p⟩

/-- All places. -/
def LHState.slots (s : LHState) : List Slot :=
  (slotsOf 0 s.cells).flatten ++ ((slotsOf 1 s.bufs).flatten ++ (slotsOf 2 s.haloBufs).flatten)

/-- `getCutoff()`: the interaction length without the skin, /repo/src/autopas/containers/CellBasedParticleContainer.h:73-90. -/
def LHParams.cutoff (c : LHParams) : Rat := c.il - c.skin

/-- `computeInteractions(functor, traversal)`, LogicHandler.h:1041-1101: all functor calls (`container.computeInteractions`, LogicHandler.h:1079;
`computeRemainderInteractions`, LogicHandler.h:1083). Both parts use the Newton 3 setting of the configuration. -/
def LHState.interactions (c : LHParams) (s : LHState) (t : LCTraversal) (f : CellFunctorCfg Slot) : List (PairCall Slot) :=
  f.run (lcCells c.block (slotsOf 0 s.cells)) (t.ops c.block.dims c.block.cellLength c.il) ++
    remainder2B Slot.pos Slot.own f.newton3 c.cutoff (slotsOf 0 s.cells).flatten (slotsOf 1 s.bufs) (slotsOf 2 s.haloBufs)

end Verif
