import Verif.Model.ContainerSelector
import Verif.Spec.ParticleHistory
/-! What it means that switching containers keeps the particles. -/
namespace Verif.Spec

/-- Where particles have to be when a container is built: owned particles inside the box, halo particles outside but not farther than the
interaction length. -/
def WellPlaced (S : SelectorCfg) (i : SelectorInfo) (p : Particle) : Prop :=
  (p.own = .owned ∧ InBox p.pos S.bMin S.bMax) ∨
  (p.own = .halo ∧ ¬ InBox p.pos S.bMin S.bMax ∧ InBox p.pos (S.bMin.addScalar (-S.il i)) (S.bMax.addScalar (S.il i)))

/-- A container can be built with these parameters. -/
def InfoOk (S : SelectorCfg) (i : SelectorInfo) : Prop := LHParamsOk (S.params i)

/-- The container chosen holds exactly the particles `l`, in some order (dummies aside). -/
def SelectorHolds (s : CSelector) (l : List Particle) : Prop :=
  ∃ k st l', s.current = some (k, st) ∧ st.particles = some l' ∧ l'.Perm l

end Verif.Spec
