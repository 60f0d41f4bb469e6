import Verif.Spec.ParticleHistory
/-! The movement obligation of the user in the form in which interactions need it: Euclidean distances and half the skin. -/
namespace Verif.Spec

/-- The positions `p` and `q` are at most `m / 2` apart. -/
def HalfApart (m : Rat) (p q : V3 Rat) : Prop := 4 * distSq p q ≤ m * m

/-- What the user has to observe in addition to `ActionOk`: an owned particle moves by at most half the skin per time step; a halo
particle that is handed over again while the cells are kept has not moved further than that per step from where it was sorted in. -/
def ActionClose (c : LHParams) (mv : Moves) (s : LHState) : LHAction → Prop
  | .addHalo _ p => s.valid = true → ∀ k, c.block.cellCanContainHalo k = true → ∀ q ∈ s.cells.getD k [], q.id = p.id →
      ∃ old, c.block.flatIndexOfPosition old = k ∧ HalfApart (c.skinPerTimestep * mv.sinceRebuild) p.pos old
  | .move f => ∀ p ∈ ownedOf s, HalfApart c.skinPerTimestep (f p) p.pos
  | _ => True

/-- All operations of a history observe it. -/
def HistoryClose (c : LHParams) : Moves → LHState → List LHAction → Prop
  | _, _, [] => True
  | mv, s, a :: as => ActionClose c mv s a ∧ ∀ r, lhStep c s a = some r → HistoryClose c (mv.next c s a) r.1 as

/-- The bookkeeping after a history. -/
def Moves.after (c : LHParams) : Moves → LHState → List LHAction → Moves
  | mv, _, [] => mv
  | mv, s, a :: as => match lhStep c s a with
    | none => mv
    | some r => Moves.after c (mv.next c s a) r.1 as

end Verif.Spec
