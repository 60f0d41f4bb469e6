import Verif.Model.SPHExchange
import Verif.Spec.MDDomain
import Verif.Spec.Iteration
/-!
What a user of the examples for smoothed particle hydrodynamics expects of the exchange of particles: the global box is periodic, each of its positions
belongs to one rank, and each rank knows the surroundings of its box.
-/
namespace Verif.Spec

/-- The particle, displaced by the given multiples of the lengths of the box. -/
def boxImage (gMin gMax : V3 Rat) (p : Particle) (k : V3 Int) : Particle :=
  { p with pos := ⟨p.pos.x + k.x * (gMax.x - gMin.x), p.pos.y + k.y * (gMax.y - gMin.y), p.pos.z + k.z * (gMax.z - gMin.z)⟩ }

/-- A particle and its 26 periodic images around the box. -/
def boxImages (gMin gMax : V3 Rat) (p : Particle) : List Particle :=
  [-1, 0, 1].flatMap fun i => [-1, 0, 1].flatMap fun j => [-1, 0, 1].map fun k => boxImage gMin gMax p ⟨i, j, k⟩

/-- The box, widened by `c` on all sides. -/
def InWidened (lo hi : V3 Rat) (c : Rat) (p : V3 Rat) : Prop := InBox p ⟨lo.x - c, lo.y - c, lo.z - c⟩ ⟨hi.x + c, hi.y + c, hi.z + c⟩

instance (lo hi : V3 Rat) (c : Rat) (p : V3 Rat) : Decidable (InWidened lo hi c p) := by unfold InWidened; infer_instance

/-- The coordinate, brought into the periodic box from less than a length of the box away. -/
def wrapCoord (gMin gMax x : Rat) : Rat := if x < gMin then x + (gMax - gMin) else if gMax ≤ x then x - (gMax - gMin) else x

/-- The particle, brought into the periodic box. -/
def wrapped (gMin gMax : V3 Rat) (p : Particle) : Particle :=
  { p with pos := ⟨wrapCoord gMin.x gMax.x p.pos.x, wrapCoord gMin.y gMax.y p.pos.y, wrapCoord gMin.z gMax.z p.pos.z⟩ }

/-- The coordinates of a rank. -/
def OnGrid (G : SPHGrid) (r : V3 Nat) : Prop := r.x < G.grid.x ∧ r.y < G.grid.y ∧ r.z < G.grid.z

instance (G : SPHGrid) (r : V3 Nat) : Decidable (OnGrid G r) := by unfold OnGrid; infer_instance

/-- A box that is divided into parts which are at least one cutoff wide. -/
structure WideGrid (G : SPHGrid) : Prop where
  cutoff : 0 < G.cutoff
  grid : ∀ d : Axis, 0 < G.grid.at d
  wide : ∀ d : Axis, G.cutoff * G.grid.at d ≤ G.gMax.at d - G.gMin.at d

/-- The owned particles of each rank lie in its box. -/
def AtHome (G : SPHGrid) (own : V3 Nat → List Particle) : Prop := ∀ r, OnGrid G r → ∀ p ∈ own r, InBox p.pos (G.lo r) (G.hi r)

/-- What leaves a rank is outside its box, but not further away than the cutoff. -/
def NearbyLeavers (G : SPHGrid) (invalid : V3 Nat → List Particle) : Prop :=
  ∀ r, OnGrid G r → ∀ p ∈ invalid r, InWidened (G.lo r) (G.hi r) G.cutoff p.pos ∧ ¬ InBox p.pos (G.lo r) (G.hi r)

/-- What rank `r` is to have received after `k` rounds: in each round what its partner sends in that round. -/
def expectedLog {R M : Type} (P : SPHRounds R M) : Nat → R → List M
  | 0, _ => []
  | k + 1, r => expectedLog P k r ++ [P.msg (P.src r k) k (expectedLog P k (P.src r k))]

/-- Partners agree: `G` are the ranks, who sends to a rank in a round is the one it expects a message from in that round. -/
structure PartnersAgree {R M : Type} (P : SPHRounds R M) (G : R → Prop) : Prop where
  dst_mem : ∀ r k, G r → G (P.dst r k)
  src_mem : ∀ r k, G r → G (P.src r k)
  src_dst : ∀ r k, G r → P.src (P.dst r k) k = r
  dst_src : ∀ r k, G r → P.dst (P.src r k) k = r

end Verif.Spec
