import Verif.Model.Iterator
import Verif.Spec.Geometry
import Mathlib.Algebra.Order.AbsoluteValue.Basic
import Mathlib.Algebra.Order.Field.Rat
/-! Vocabulary for iteration. -/
namespace Verif.Spec

/-- The documented meaning of the bits of an iterator behaviour, as a test: bit 0 asks for owned particles, bit 1 for halo
particles, bit 2 for dummies. -/
def wanted (behavior : Nat) : Ownership → Bool
  | .owned => behavior.testBit 0
  | .halo => behavior.testBit 1
  | .dummy => behavior.testBit 2

/-- `forceSequential` is bit 3. -/
def Sequential (behavior : Nat) : Prop := behavior.testBit 3 = true

/-- A user loop over an iterator ends after finitely many rounds, having made the visits `vs` and leaving `cells'` and the
additional vectors `vecs'`. -/
def LoopEnds {P : Type} (cfg : IterCfg P) (body : List P → P → Option P) (cells vecs : List (List P)) (vs : List (Visit P))
    (cells' vecs' : List (List P)) : Prop :=
  ∃ m0, ∀ m, m0 ≤ m → ∃ t, iterLoop cfg body m [] (iterBegin cfg cells vecs) = some (vs, t) ∧ t.cells = cells' ∧ t.vecs = vecs'

/-- A loop body that leaves every particle as it is. -/
def readOnly {P : Type} : List P → P → Option P := fun _ p => some p

/-- Every visited particle got the treatment the body asked for, given the particles visited before it. -/
def Obeys {P : Type} (body : List P → P → Option P) (vs : List (Visit P)) : Prop :=
  ∀ pre v post, vs = pre ++ v :: post → v.after = body (pre.map Visit.before) v.before

/-- A loop body that deletes the particles satisfying `d` and leaves the others as they are. -/
def deleteIf {P : Type} (d : P → Bool) : List P → P → Option P := fun _ p => if d p then none else some p

/-- Storage of a linked-cells container: one list per cell; owned particles are in cells inside the box and halo particles in
halo cells (this is how AutoPas sorts them in, C02). No vector is longer than `size_t` can count. -/
structure LCStorage (b : CellBlock) (cells vecs : List (List Particle)) : Prop where
  len : cells.length = b.numCells
  pos : 0 < b.numCells
  ownedIn : ∀ c, ∀ p ∈ cells.getD c [], p.own = .owned → b.cellCanContainHalo c = false
  haloIn : ∀ c, ∀ p ∈ cells.getD c [], p.own = .halo → b.cellCanContainHalo c = true
  small : ∀ l ∈ cells, l.length < 2 ^ 64
  vsmall : ∀ l ∈ vecs, l.length < 2 ^ 64
  vnum : vecs.length < 2 ^ 64

/-- Behaviours that do not ask for dummies, or ask for everything. -/
def NoDummyOrAll (behavior : Nat) : Prop :=
  behavior.testBit 2 = true → behavior.testBit 0 = true ∧ behavior.testBit 1 = true

instance (p lo hi : V3 Rat) : Decidable (InBox p lo hi) :=
  inferInstanceAs (Decidable ((_ ∧ _) ∧ (_ ∧ _) ∧ (_ ∧ _)))

/-- No particle has moved further than `m` (along any axis) since it was sorted into its cell: it is that close to a position
that belongs to the cell it is stored in. -/
def MovedAtMost (b : CellBlock) (m : Rat) (cells : List (List Particle)) : Prop :=
  ∀ c, ∀ p ∈ cells.getD c [], ∃ old : V3 Rat, b.flatIndexOfPosition old = c ∧
    |p.pos.x - old.x| ≤ m ∧ |p.pos.y - old.y| ≤ m ∧ |p.pos.z - old.z| ≤ m

end Verif.Spec
