import Verif.Model.MDMigrate
import Verif.Spec.MDDomain
/-!
Where a particle that has left the box is expected to re-enter.
-/
namespace Verif.Spec

/-- A coordinate beyond one end of the global box re-enters at the other end. If rounding would put it onto or over the end of the box, it is
put just inside. -/
def rewrapCoord (D : RGD) (w : Wrap) (d : Axis) (x : Rat) : Rat :=
  if x < D.gMin.at d then min (w.inside d) (w.rnd (x + (D.gMax.at d - D.gMin.at d)))
  else if D.gMax.at d ≤ x then max (D.gMin.at d) (w.rnd (x - (D.gMax.at d - D.gMin.at d)))
  else x

/-- The particle, back in the global box; identity and state are kept. -/
def rewrap (D : RGD) (w : Wrap) (p : Particle) : Particle :=
  { p with pos := ⟨rewrapCoord D w .x p.pos.x, rewrapCoord D w .y p.pos.y, rewrapCoord D w .z p.pos.z⟩ }

/-- What is assumed about floating point: rounding as in `Rounding`, `inside d` is below the upper end of the box but not below any lower
end of a domain. -/
structure WrapOk (D : RGD) (cut : Axis → Nat → Rat) (w : Wrap) : Prop where
  rounding : Rounding w.rnd
  inside_lt : ∀ d, w.inside d < D.gMax.at d
  inside_ge : ∀ d i, i < D.dec.at d → cut d i ≤ w.inside d

/-- A coordinate has gone no further than the domain next to that of rank `r`; across an end of the global box, not further than `s`. -/
def NotFar (D : RGD) (cut : Axis → Nat → Rat) (s : Rat) (r : V3 Nat) (d : Axis) (x : Rat) : Prop :=
  (if r.at d = 0 then D.gMin.at d - s ≤ x else cut d (r.at d - 1) ≤ x) ∧
    (if r.at d + 1 = D.dec.at d then x < D.gMax.at d + s else x < cut d (r.at d + 2))

/-- The emigrants of a rank: outside its local box, but not far; in a non-periodic dimension still inside the global box. -/
structure Emigrants (D : RGD) (cut : Axis → Nat → Rat) (s : Rat) (em : V3 Nat → List Particle) : Prop where
  outside : ∀ r, IsRank D r → ∀ p ∈ em r, ¬ InBox p.pos (D.lo r) (D.hi r)
  close : ∀ r, IsRank D r → ∀ p ∈ em r, ∀ d : Axis, NotFar D cut s r d (p.pos.at d)
  global : ∀ r, IsRank D r → ∀ p ∈ em r, ∀ d : Axis, D.boundary.at d ≠ .periodic → D.gMin.at d ≤ p.pos.at d ∧ p.pos.at d < D.gMax.at d

end Verif.Spec
