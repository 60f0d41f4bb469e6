import Verif.Model.LinkedCellsReferences
import Verif.Spec.ParticleHistory
/-!
Histories of the operations of the container `linkedCellsReferences`: what they do (`lrStep`), what they are supposed to do to
the collection of owned particles (`lrWanted`), and what the caller has to observe (`LRActionOk`).
-/
namespace Verif.Spec

/-- The operations. -/
inductive LRAction
  /-- `addParticle(p)` -/
  | add (p : Particle)
  /-- `addHaloParticle(p)` -/
  | addHalo (p : Particle)
  /-- `updateHaloParticle(p)` -/
  | updateHalo (p : Particle)
  /-- every owned particle gets a new position, through an iterator -/
  | move (f : Particle → V3 Rat)
  /-- `deleteParticle(k, i)`, which is what deletion through an iterator does -/
  | delete (k i : Nat)
  /-- `updateContainer(true)`: the number of time steps the container has been told, and the order of the threads' loops over the
  halo volumes -/
  | keep (contSteps : Nat) (order : List ((V3 Rat × V3 Rat) × Nat))
  /-- `updateContainer(false)`: the order in which the threads sort in again what has left its cell -/
  | rebuild (sched : List Particle → List Particle)
  /-- `deleteAllParticles()` -/
  | deleteAll

/-- One operation on the model: the new state and the particles handed back. -/
def lrStep (c : LHParams) (grow : Nat → Nat) (st : LRState) : LRAction → Outcome (LRState × List Particle)
  | .add p => (st.add c grow p).bind fun s => .ok (s, [])
  | .addHalo p => (st.add c grow p).bind fun s => .ok (s, [])
  | .updateHalo p => (st.updateHalo c p).bind fun s => .ok (s, [])
  | .move f => (st.move f).bind fun s => .ok (s, [])
  | .delete k i => (st.delete k i).bind fun s => .ok (s, [])
  | .keep contSteps order => st.updateKeep c contSteps order
  | .rebuild sched => st.updateRebuild c grow sched
  | .deleteAll => .ok (st.deleteAll, [])

/-- What an operation is supposed to do to the collection `S` of owned particles and what it is supposed to hand back. -/
def lrWanted (c : LHParams) (st : LRState) (S : List Particle) : LRAction → List Particle × List Particle
  | .add p => (S ++ [p], [])
  | .addHalo _ => (S, [])
  | .updateHalo _ => (S, [])
  | .move f => (S.map fun p => { p with pos := f p }, [])
  | .delete k i => ((match st.particleAt k i with
      | some p => if p.own = .owned then S.erase p else S
      | none => S), [])
  | .keep _ _ => (S.filter fun p => InBox p.pos c.bMin c.bMax, S.filter fun p => ¬ InBox p.pos c.bMin c.bMax)
  | .rebuild _ => (S.filter fun p => InBox p.pos c.bMin c.bMax, S.filter fun p => ¬ InBox p.pos c.bMin c.bMax)
  | .deleteAll => ([], [])

/-- What the caller has to observe; `m` counts the moves since the cells were last sorted by `updateContainer(false)`, `S` are the
owned particles. -/
def LRActionOk (c : LHParams) (m : Nat) (st : LRState) (S : List Particle) : LRAction → Prop
  | .add p => p.own = .owned ∧ InBox p.pos c.bMin c.bMax
  | .addHalo p => p.own = .halo ∧ ¬ InBox p.pos c.bMin c.bMax
  | .updateHalo p => p.own = .halo ∧ ¬ InBox p.pos c.bMin c.bMax ∧
      ∀ k, c.block.cellCanContainHalo k = true → ∀ i q, st.particleAt k i = some q → q.id = p.id →
        ∃ old, c.block.flatIndexOfPosition old = k ∧ Displaced (c.skinPerTimestep * m) p.pos old
  | .move f => ∀ p ∈ S, Displaced c.skinPerTimestep (f p) p.pos
  | .delete k i => st.particleAt k i ≠ none
  | .keep contSteps order => m ≤ contSteps ∧ m ≤ c.rebuildFrequency ∧
      order.Perm ((haloVolumes c).flatMap fun v => (List.range c.numThreads).map fun t => (v, t))
  | .rebuild sched => ∀ l, (sched l).Perm l
  | .deleteAll => True

/-- The moves since the cells were last sorted. -/
def LRAction.moves (m : Nat) : LRAction → Nat
  | .move _ => m + 1
  | .rebuild _ => 0
  | _ => m

/-- Whether an operation adds a particle. -/
def LRAction.adds : LRAction → Prop
  | .add _ => True
  | .addHalo _ => True
  | _ => False

/-- A history in which every operation observes what it has to, and in addition satisfies `extra`. -/
def LRHistoryOk (c : LHParams) (grow : Nat → Nat) (extra : List Particle → LRAction → Prop) :
    Nat → LRState → List Particle → List LRAction → Prop
  | _, _, _, [] => True
  | m, st, S, a :: as => LRActionOk c m st S a ∧ extra S a ∧
      ∀ r, lrStep c grow st a = .ok r → LRHistoryOk c grow extra (a.moves m) r.1 (lrWanted c st S a).1 as

/-- A whole history on the model: the final state and what was handed back by each operation. -/
def lrRun (c : LHParams) (grow : Nat → Nat) : LRState → List LRAction → Outcome (LRState × List (List Particle))
  | st, [] => .ok (st, [])
  | st, a :: as => (lrStep c grow st a).bind fun r => (lrRun c grow r.1 as).bind fun t => .ok (t.1, r.2 :: t.2)

/-- A whole history of intended effects. -/
def lrWantedRun (c : LHParams) (grow : Nat → Nat) : LRState → List Particle → List LRAction → List Particle × List (List Particle)
  | _, S, [] => (S, [])
  | st, S, a :: as =>
    let w := lrWanted c st S a
    match lrStep c grow st a with
    | .ok r => let t := lrWantedRun c grow r.1 w.1 as; (t.1, w.2 :: t.2)
    | _ => (w.1, [w.2])

/-- The owned particles that can be reached through the cells; `none` if some pointer is dangling. -/
def lrOwned (st : LRState) : Option (List Particle) :=
  st.view.map fun v => v.flatten.filter fun p => decide (p.own = .owned)

/-- `deleteAllParticles` is not used. -/
def noDeleteAll (_ : List Particle) (a : LRAction) : Prop := a ≠ .deleteAll

/-- `deleteAllParticles` is not used, and particles are added only while all owned particles are inside the box. -/
def calm (c : LHParams) (S : List Particle) (a : LRAction) : Prop :=
  a ≠ .deleteAll ∧ (a.adds → ∀ p ∈ S, InBox p.pos c.bMin c.bMax)

end Verif.Spec
