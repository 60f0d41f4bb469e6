import Verif.Model.Ownership
/-! What a behaviour names. -/
namespace Verif.Spec

/-- The documented meaning of the bits of an iterator behaviour: bit 0 asks for owned particles, bit 1 for halo particles,
bit 2 for dummies. -/
def Names (behavior : Nat) (s : Ownership) : Prop :=
  match s with
  | .owned => behavior.testBit 0 = true
  | .halo => behavior.testBit 1 = true
  | .dummy => behavior.testBit 2 = true

end Verif.Spec
