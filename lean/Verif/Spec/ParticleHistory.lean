import Verif.Model.LogicParticles
import Verif.Spec.Iteration
/-!
Histories of user operations on AutoPas as far as particles are concerned: what they do to the model (`lhStep`), what they are
supposed to do to the collection of owned particles (`wantedStep`), and what the user has to observe (`ActionOk`).
-/
namespace Verif.Spec

/-- The operations. -/
inductive LHAction
  /-- `addParticle(p)`, called by a thread -/
  | add (thread : Nat) (p : Particle)
  /-- `addHaloParticle(p)`, called by a thread -/
  | addHalo (thread : Nat) (p : Particle)
  /-- the user gives every owned particle a new position -/
  | move (f : Particle → V3 Rat)
  /-- a loop over `begin(behavior)` deleting the particles that satisfy `d` -/
  | delete (behavior : Nat) (d : Particle → Bool)
  /-- `updateContainer()`; `expire`: a tuner asks for a rebuild; `order`: the order of the threads' loops over the halo volumes -/
  | update (expire : Bool) (order : List ((V3 Rat × V3 Rat) × Nat))
  /-- `computeInteractions(..)` -/
  | compute
  /-- `deleteAllParticles()` -/
  | deleteAll

/-- One operation on the model: the new state and the particles handed back to the user. A throwing operation leaves the state
as it was. `none`: some loop does not end, or undefined behaviour. -/
def lhStep (c : LHParams) (s : LHState) : LHAction → Option (LHState × List Particle)
  | .add t p => match s.addParticle c t p with
    | .ok s' => some (s', [])
    | .throws => some (s, [])
    | _ => none
  | .addHalo t p => match s.addHaloParticle c t p with
    | .ok s' => some (s', [])
    | .throws => some (s, [])
    | _ => none
  | .move f => some (s.move f, [])
  | .delete behavior d => (s.deleteLoop c behavior d).map fun s' => (s', [])
  | .update expire order => s.updateContainer c expire order
  | .compute => some (s.compute, [])
  | .deleteAll => some (s.deleteAll, [])

/-- A whole history: the final state and what was handed back by each operation. -/
def lhRun (c : LHParams) : LHState → List LHAction → Option (LHState × List (List Particle))
  | s, [] => some (s, [])
  | s, a :: as => match lhStep c s a with
    | none => none
    | some (s', out) => (lhRun c s' as).map fun r => (r.1, out :: r.2)

/-- What an operation is supposed to do to the collection of owned particles, and what it is supposed to hand back. -/
def wantedStep (c : LHParams) (S : List Particle) : LHAction → List Particle × List Particle
  | .add _ p => (if InBox p.pos c.bMin c.bMax then S ++ [{ p with own := .owned }] else S, [])
  | .addHalo _ _ => (S, [])
  | .move f => (S.map fun p => { p with pos := f p }, [])
  | .delete behavior d => (if behavior.testBit 0 then S.filter fun p => !d p else S, [])
  | .update _ _ => (S.filter fun p => InBox p.pos c.bMin c.bMax, S.filter fun p => ¬ InBox p.pos c.bMin c.bMax)
  | .compute => (S, [])
  | .deleteAll => ([], [])

/-- A whole history of intended effects. -/
def wantedRun (c : LHParams) : List Particle → List LHAction → List Particle × List (List Particle)
  | S, [] => (S, [])
  | S, a :: as => let r := wantedStep c S a; ((wantedRun c r.1 as).1, r.2 :: (wantedRun c r.1 as).2)

/-- The owned particles AutoPas holds. -/
def ownedOf (s : LHState) : List Particle :=
  (s.cells.flatten ++ s.bufs.flatten ++ s.haloBufs.flatten).filter fun p => decide (p.own = .owned)

/-- Bookkeeping for the user's obligations: how often the particles were moved since cells were last rebuilt, and whether they
were moved since the last `updateContainer`. -/
structure Moves where
  sinceRebuild : Nat
  sinceUpdate : Bool

/-- Positions `p` and `q` differ by at most `m` along every axis. -/
def Displaced (m : Rat) (p q : V3 Rat) : Prop := |p.x - q.x| ≤ m ∧ |p.y - q.y| ≤ m ∧ |p.z - q.z| ≤ m

/-- What the user has to observe. Particles move at most once between two calls of `updateContainer` and then by at most the
skin per time step along every axis. A halo particle that is already stored and is handed over again while the cells are
kept has not moved further than that per step from the cell it was sorted into. Deletion loops do not ask for dummies. The
number of calling threads is the one the buffers were made for. `order` is any order of the loops of all threads over the six
volumes. -/
def ActionOk (c : LHParams) (mv : Moves) (s : LHState) : LHAction → Prop
  | .add t _ => t < c.numThreads
  | .addHalo t p => t < c.numThreads ∧
      (s.valid = true → ∀ k, c.block.cellCanContainHalo k = true → ∀ q ∈ s.cells.getD k [], q.id = p.id →
        ∃ old, c.block.flatIndexOfPosition old = k ∧ Displaced (c.skinPerTimestep * mv.sinceRebuild) p.pos old)
  | .move f => mv.sinceUpdate = false ∧ ∀ p ∈ ownedOf s, Displaced c.skinPerTimestep (f p) p.pos
  | .delete behavior _ => behavior.testBit 2 = false
  | .update _ order => order.Perm ((haloVolumes c).flatMap fun v => (List.range c.numThreads).map fun t => (v, t))
  | .compute => True
  | .deleteAll => True

/-- The bookkeeping after an operation. -/
def Moves.next (c : LHParams) (mv : Moves) (s : LHState) : LHAction → Moves
  | .move _ => ⟨mv.sinceRebuild + 1, true⟩
  | .update expire _ => ⟨if listsStillValid c s expire then mv.sinceRebuild else 0, false⟩
  | _ => mv

/-- All operations of a history observe the obligations. -/
def HistoryOk (c : LHParams) : Moves → LHState → List LHAction → Prop
  | _, _, [] => True
  | mv, s, a :: as => ActionOk c mv s a ∧ ∀ r, lhStep c s a = some r → HistoryOk c (mv.next c s a) r.1 as

/-- Sensible parameters: every side of the box is at least an interaction length, the cutoff (interaction length minus skin) is
not negative, nor is the skin, and there is at least one thread. -/
structure LHParamsOk (c : LHParams) : Prop where
  box : GoodBox c.bMin c.bMax c.il c.csf
  skinPos : 0 ≤ c.skinPerTimestep
  cutoff : c.skin ≤ c.il
  threads : 0 < c.numThreads
  few : 2 * c.numThreads < 2 ^ 64

end Verif.Spec
