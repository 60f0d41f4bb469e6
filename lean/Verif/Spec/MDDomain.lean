import Verif.Model.MDDomain
import Verif.Spec.Geometry
/-!
What a user of md-flexible expects of the domain decomposition: every position of the global box belongs to exactly one rank, and every rank sees
every periodic image of every particle that comes near its part of the box.
-/
namespace Verif.Spec

/-- A domain id of the decomposition. -/
def IsRank (D : RGD) (r : V3 Nat) : Prop := r.x < D.dec.x ∧ r.y < D.dec.y ∧ r.z < D.dec.z

instance (D : RGD) (r : V3 Nat) : Decidable (IsRank D r) := by unfold IsRank; infer_instance

/-- All domain ids. -/
def ranks (dec : V3 Nat) : List (V3 Nat) :=
  (List.range dec.x).flatMap fun i => (List.range dec.y).flatMap fun j => (List.range dec.z).map fun k => ⟨i, j, k⟩

/-- The local boxes are the cells of a grid over the global box: along dimension `d` the domains are separated by
`cut d 0 < cut d 1 < ... < cut d n`, from the lower to the upper end of the global box, every domain at least `minWidth` wide. -/
structure Tiling (D : RGD) (cut : Axis → Nat → Rat) (minWidth : Rat) : Prop where
  pos : ∀ d, 0 < D.dec.at d
  first : ∀ d, cut d 0 = D.gMin.at d
  last : ∀ d, cut d (D.dec.at d) = D.gMax.at d
  wide : ∀ d i, i < D.dec.at d → minWidth ≤ cut d (i + 1) - cut d i
  lo : ∀ r, IsRank D r → ∀ d, (D.lo r).at d = cut d (r.at d)
  hi : ∀ r, IsRank D r → ∀ d, (D.hi r).at d = cut d (r.at d + 1)

/-- The interaction length: cutoff plus skin. -/
def reach (D : RGD) : Rat := D.cutoff + D.skin

/-- By how many box lengths an image may be displaced: one to either side in a periodic dimension. -/
def shifts : BoundaryType → List Int
  | .periodic => [-1, 0, 1]
  | _ => [0]

/-- The particle, displaced by the given multiples of the box lengths. -/
def image (D : RGD) (p : Particle) (k : V3 Int) : Particle :=
  { p with pos := ⟨p.pos.x + k.x * (D.gMax.x - D.gMin.x), p.pos.y + k.y * (D.gMax.y - D.gMin.y), p.pos.z + k.z * (D.gMax.z - D.gMin.z)⟩ }

/-- A particle and its periodic images around the global box. -/
def imagesOf (D : RGD) (p : Particle) : List Particle :=
  (shifts D.boundary.x).flatMap fun i => (shifts D.boundary.y).flatMap fun j => (shifts D.boundary.z).map fun k => image D p ⟨i, j, k⟩

/-- The part of space a rank has to know: its local box, widened by the interaction length on all sides. -/
def InReach (D : RGD) (r : V3 Nat) (p : V3 Rat) : Prop :=
  InBox p ⟨(D.lo r).x - reach D, (D.lo r).y - reach D, (D.lo r).z - reach D⟩
    ⟨(D.hi r).x + reach D, (D.hi r).y + reach D, (D.hi r).z + reach D⟩

instance (D : RGD) (r : V3 Nat) (p : V3 Rat) : Decidable (InReach D r p) := by unfold InReach InBox; infer_instance

end Verif.Spec
