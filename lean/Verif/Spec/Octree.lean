import Verif.Model.OctreeStorage
import Verif.Spec.Iteration
/-! What a user expects of the storage: two collections of particles. -/
namespace Verif.Spec
open Octree

/-- The stored particles, without order, and whether positions changed since the particles were sorted in. -/
structure OTContents where
  owned : List Particle
  halo : List Particle
  ownedMoved : Bool
  haloMoved : Bool

/-- Nothing stored. -/
def OTContents.empty : OTContents := ⟨[], [], false, false⟩

/-- The expected effect of an action: what is handed back, and what is stored afterwards. `removed` is the particle an iterator points to (only used
for deletions). -/
def OTContents.step (lo hi : V3 Rat) (s : OTContents) (removed : Option Particle) : OTAction → List Particle × OTContents
  | .add p => ([], { s with owned := p :: s.owned })
  | .addHalo p => ([], { s with halo := p :: s.halo })
  | .change g => ([], ⟨s.owned.map g, s.halo.map g, true, true⟩)
  | .update => (s.owned.filter fun p => p.own ≠ .dummy ∧ ¬ InBox p.pos lo hi, ⟨s.owned.filter fun p => p.own ≠ .dummy ∧ InBox p.pos lo hi, [], false, false⟩)
  | .deleteHalo => ([], { s with halo := [], haloMoved := false })
  | .deleteOwnedAt _ _ => ([], { s with owned := removed.elim s.owned s.owned.erase })
  | .deleteHaloAt _ _ => ([], { s with halo := removed.elim s.halo s.halo.erase })

end Verif.Spec
