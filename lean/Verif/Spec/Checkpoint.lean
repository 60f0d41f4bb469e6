import Verif.Model.Checkpoint
/-! What a checkpoint of md-flexible preserves. -/
namespace Verif.Spec.Checkpoint

/-- A decimal number with at most `P` significant digits. -/
def Decimal (P : Nat) (r : Rat) : Prop := ∃ m e : Int, |m| < 10 ^ P ∧ r = m * (10 : Rat) ^ e

/-- `r` is a decimal number with `P` significant digits and no other one is closer to `q`. -/
def Closest (P : Nat) (q r : Rat) : Prop := Decimal P r ∧ ∀ r', Decimal P r' → |q - r| ≤ |q - r'|

/-- A finite value and its rounded copy. -/
def StoredVal (P : Nat) (d d' : Dbl) : Prop := ∃ q r, d = .num q ∧ d' = .num r ∧ Closest P q r

/-- A vector and its copy, rounded to the six digits that streams write by default. -/
def StoredV3 (v v' : V3 Dbl) : Prop := StoredVal 6 v.x v'.x ∧ StoredVal 6 v.y v'.y ∧ StoredVal 6 v.z v'.z

/-- A position is stored with at least six digits. -/
def StoredPos (v v' : V3 Dbl) : Prop :=
  (∃ P, 6 ≤ P ∧ P ≤ 15 ∧ StoredVal P v.x v'.x) ∧ (∃ P, 6 ≤ P ∧ P ≤ 15 ∧ StoredVal P v.y v'.y) ∧ (∃ P, 6 ≤ P ∧ P ≤ 15 ∧ StoredVal P v.z v'.z)

/-- A particle and its copy. -/
structure Stored (multisite : Bool) (p p' : CkParticle) : Prop where
  pos : StoredPos p.pos p'.pos
  vel : StoredV3 p.vel p'.vel
  force : StoredV3 p.force p'.force
  typeId : p'.typeId = p.typeId
  id : p'.id = p.id
  quat : multisite → StoredVal 6 p.quat.1 p'.quat.1 ∧ StoredVal 6 p.quat.2.1 p'.quat.2.1 ∧ StoredVal 6 p.quat.2.2.1 p'.quat.2.2.1 ∧
    StoredVal 6 p.quat.2.2.2 p'.quat.2.2.2
  angVel : multisite → StoredV3 p.angVel p'.angVel
  torque : multisite → StoredV3 p.torque p'.torque

/-- All values of a vector are finite. -/
def FiniteV3 (v : V3 Dbl) : Prop := ∃ x y z, v = ⟨.num x, .num y, .num z⟩

/-- A particle without NaN or infinite values and with numbers that fit into a `size_t`. -/
structure Regular (p : CkParticle) : Prop where
  pos : FiniteV3 p.pos
  vel : FiniteV3 p.vel
  force : FiniteV3 p.force
  typeId : p.typeId < 2 ^ 64
  id : p.id < 2 ^ 64
  quat : ∃ a b c d, p.quat = (.num a, .num b, .num c, .num d)
  angVel : FiniteV3 p.angVel
  torque : FiniteV3 p.torque

/-- The characters that separate words. -/
def Separators : List Char := [' ', '/', '.', ',', '?', '!', '"', '\'', '<', '>', '=', ':', ';', '\n', '\t', '\r']

/-- No word of the text begins with `Piece`. -/
def NoPiece (name : List Char) : Prop :=
  ∀ a b, name = a ++ ("Piece".toList ++ b) → ∃ a' c, a = a' ++ [c] ∧ c ∉ Separators

end Verif.Spec.Checkpoint
