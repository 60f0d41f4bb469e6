import Mathlib.Analysis.Real.Sqrt
import Verif.Model.MDObjects
/-! What the objects of md-flexible are: lattices and boxes. -/
namespace Verif.Spec.MDObjects

/-- Squared distance of two points. -/
def dist2 (p q : V3 ℝ) : ℝ := (p.x - q.x) ^ 2 + (p.y - q.y) ^ 2 + (p.z - q.z) ^ 2

/-- `p` is in the box from `lo` (included) to `hi` (excluded). -/
def InBox (p lo hi : V3 ℝ) : Prop :=
  (lo.x ≤ p.x ∧ p.x < hi.x) ∧ (lo.y ≤ p.y ∧ p.y < hi.y) ∧ (lo.z ≤ p.z ∧ p.z < hi.z)

/-- `p` is in the box from `lo` to `hi`, both included. -/
def InClosedBox (p lo hi : V3 ℝ) : Prop :=
  (lo.x ≤ p.x ∧ p.x ≤ hi.x) ∧ (lo.y ≤ p.y ∧ p.y ≤ hi.y) ∧ (lo.z ≤ p.z ∧ p.z ≤ hi.z)

/-- A point of the cubic lattice with `n` points per axis. -/
def GridPoint (n : V3 Nat) (s : ℝ) (corner p : V3 ℝ) : Prop :=
  ∃ i j k : Nat, i < n.x ∧ j < n.y ∧ k < n.z ∧ p = ⟨corner.x + s * i, corner.y + s * j, corner.z + s * k⟩

/-- A point of the cubic lattice around `c` that is at most `r` steps away along each axis and at most `r + 1` steps away as the crow flies. -/
def SpherePoint (c : V3 ℝ) (r : Int) (s : ℝ) (p : V3 ℝ) : Prop :=
  ∃ i j k : Int, |i| ≤ r ∧ |j| ≤ r ∧ |k| ≤ r ∧ i ^ 2 + j ^ 2 + k ^ 2 ≤ (r + 1) ^ 2 ∧
    p = ⟨c.x + s * i, c.y + s * j, c.z + s * k⟩

/-- Site `i` of row `j` of layer `k` of the hexagonal closest packing of spheres with diameter `s`: rows have distance `s √3/2` and are
shifted by half a diameter against each other, layers have distance `s √(2/3)`, and every other layer is shifted by `s/√12` along y. -/
noncomputable def packedSite (s : ℝ) (corner : V3 ℝ) (i j k : Nat) : V3 ℝ :=
  ⟨corner.x + s * (i + if (j + k) % 2 = 1 then 1 / 2 else 0),
    corner.y + s * (Real.sqrt (3 / 4) * j + if k % 2 = 1 then Real.sqrt (1 / 12) else 0),
    corner.z + s * (Real.sqrt (2 / 3) * k)⟩

/-- A point of the hexagonal closest packing in a box of the given lengths. -/
def PackedPoint (s : ℝ) (len corner p : V3 ℝ) : Prop :=
  (∃ i j k : Nat, p = packedSite s corner i j k) ∧ p.x < corner.x + len.x ∧ p.y < corner.y + len.y ∧ p.z < corner.z + len.z

/-- The image of `p` when the box of the given lengths is repeated. -/
def image (len : V3 ℝ) (a b c : Int) (p : V3 ℝ) : V3 ℝ := ⟨p.x + a * len.x, p.y + b * len.y, p.z + c * len.z⟩

end Verif.Spec.MDObjects

namespace Verif

/-- Sensible parameters: positive spacings and lengths. -/
def ObjShape.Valid : ObjShape → Prop
  | .cubeGrid _ s _ => 0 < s
  | .cubeGauss .. => True
  | .cubeUniform _ len _ => 0 < len.x ∧ 0 < len.y ∧ 0 < len.z
  | .sphere _ _ s => 0 < s
  | .cubeClosestPacked s len _ => 0 < s ∧ 0 ≤ len.x ∧ 0 ≤ len.y ∧ 0 ≤ len.z

/-- `std::uniform_real_distribution` draws from `[0, 1)`. -/
def ObjRandom.Fair (rnd : ObjRandom) : Prop :=
  ∀ k, (0 ≤ (rnd.uniform k).x ∧ (rnd.uniform k).x < 1) ∧ (0 ≤ (rnd.uniform k).y ∧ (rnd.uniform k).y < 1) ∧
    (0 ≤ (rnd.uniform k).z ∧ (rnd.uniform k).z < 1)

/-- All objects in the order of generation. -/
def ObjConfig.objects (c : ObjConfig) : List MDObject := c.grids ++ c.gausses ++ c.uniforms ++ c.spheres ++ c.packed

/-- What one object contributes. -/
def Chunk (rnd : ObjRandom) (o : MDObject) (chunk : List ObjParticle) : Prop :=
  o.shape.positions rnd = .ok (chunk.map (·.pos)) ∧
    ∀ p ∈ chunk, p.typeId = o.typeId ∧ p.vel = o.vel ∧ p.own = .owned ∧ p.force = ⟨0, 0, 0⟩ ∧ p.oldForce = ⟨0, 0, 0⟩

end Verif
