import Verif.Model.MDRun
import Verif.Spec.MDMigrate
/-!
What is asked of the movement of the particles in one time step, and of the setup, for md-flexible to keep track of all particles.
-/
namespace Verif.Spec

/-- The same particle, moved by at most `δ` along every axis. -/
def MovesBy (δ : Rat) (a b : Particle) : Prop := b.id = a.id ∧ ∀ d : Axis, |b.pos.at d - a.pos.at d| ≤ δ

/-- One time step moves every particle by at most `δ`; in a dimension without periodic boundary the particles stay in the box. -/
structure GoodInput (D : RGD) (δ : Rat) (inp : MDInput) : Prop where
  small : ∀ own r, List.Forall₂ (MovesBy δ) (own r) (inp.move own r)
  inside : ∀ own r, IsRank D r → (∀ p ∈ own r, InBox p.pos D.gMin D.gMax) → ∀ p ∈ inp.move own r, ∀ d : Axis, D.boundary.at d ≠ .periodic →
    D.gMin.at d ≤ p.pos.at d ∧ p.pos.at d < D.gMax.at d
  load : ∀ work, inp.balance = some work → ∀ r, IsRank D r → 0 < work r

/-- What is asked of the setup: two interaction lengths as minimum width of the domains, all in the range where the comparisons with relative
tolerance are sharp, y and z periodic or not divided. -/
structure GoodSetup (D : RGD) (wr : Wrap) (δ : Rat) : Prop where
  cutoff : 0 < D.cutoff
  skin : 0 ≤ D.skin
  near : ∀ d : Axis, max |D.gMin.at d| |D.gMax.at d| < 1000000000 * reach D
  per : ∀ d : Axis, d ≠ .x → D.boundary.at d = .periodic ∨ D.dec.at d = 1
  rounding : Rounding wr.rnd
  inside_lt : ∀ d, wr.inside d < D.gMax.at d
  inside_ge : ∀ d, D.gMax.at d - 2 * reach D ≤ wr.inside d
  nonneg : 0 ≤ δ
  slow : ∀ d : Axis, δ + 1 / 2 ^ 53 * max |D.gMin.at d| |D.gMax.at d| ≤ 2 * reach D

/-- Only the local boxes differ. -/
def SameGrid (D D' : RGD) : Prop := D' = { D with lo := D'.lo, hi := D'.hi }

/-- A state of all ranks in which everything is in its place: the local boxes tile the global box, two interaction lengths wide or more, and every
particle is stored by the rank whose box it is in. -/
def InPlace (D : RGD) (st : MDState) : Prop :=
  SameGrid D st.D ∧ (∃ cut, Tiling st.D cut (2 * reach D)) ∧ ∀ r, IsRank D r → ∀ p ∈ st.own r, InBox p.pos (st.D.lo r) (st.D.hi r)

end Verif.Spec
