import Verif.Model.Outcome

/-! Sending particles from one rank to another: md-flexible's particle serialization and its communicator.

Source: /repo/examples/md-flexible/src/ParticleSerializationTools.cpp, /repo/examples/md-flexible/src/ParticleCommunicator.cpp,
/repo/applicationLibrary/molecularDynamics/molecularDynamicsLibrary/MoleculeLJ.h (get / set),
/repo/applicationLibrary/molecularDynamics/molecularDynamicsLibrary/MultisiteMoleculeLJ.h (get / set).

Every member of a molecule is a 64 bit object (`size_t`, `double`, or the enum class `OwnershipState : int64_t`); it is
represented by its bit pattern, so the model distinguishes all doubles, including signed zeros and NaN payloads. -/
namespace Verif.Ser

/-- A 64 bit object, by its bit pattern. -/
abbrev Word := BitVec 64

/-- A byte of a `std::vector<char>`. -/
abbrev Byte := BitVec 8

/-- The object representation of a 64 bit object, as `memcpy` sees it (little endian; x86-64, all ranks alike). -/
def toBytes (w : Word) : List Byte :=
  (List.range 8).map fun i => w.extractLsb' (8 * i) 8

/-- The 64 bit object with the given object representation (little endian), as `memcpy` into it makes it. -/
def ofBytes (bs : List Byte) : Word :=
  bs.foldr (fun b acc => (acc <<< 8) ||| b.zeroExtend 64) 0

/-- A `std::array<double, 3>`. -/
structure W3 where
  x : Word
  y : Word
  z : Word
deriving DecidableEq, Repr

/-- The data members of `mdLib::MoleculeLJ` and its base `autopas::ParticleBase`
(/repo/src/autopas/particles/ParticleBase.h:58-78 `_r,_v,_f,_id,_ownershipState`; MoleculeLJ.h `_typeId,_oldF`). -/
structure Mol where
  r : W3
  v : W3
  f : W3
  id : Word
  own : Word
  typeId : Word
  oldF : W3
deriving DecidableEq, Repr

/-- The data members of `mdLib::MultisiteMoleculeLJ`: those of `MoleculeLJ` and the quaternion, the angular velocity and the
torque (MultisiteMoleculeLJ.h `_q,_angularVel,_torque`). -/
structure MultiMol extends Mol where
  q0 : Word
  q1 : Word
  q2 : Word
  q3 : Word
  angularVel : W3
  torque : W3
deriving DecidableEq, Repr

/-- The attribute names used by the serialization (MoleculeLJ.h:39-56; `ptr` is not used). -/
inductive Attr
  | id | posX | posY | posZ | velocityX | velocityY | velocityZ | forceX | forceY | forceZ | oldForceX | oldForceY | oldForceZ
  | typeId | ownershipState
deriving DecidableEq, Repr

/-- The attribute names of `MultisiteMoleculeLJ` (MultisiteMoleculeLJ.h:49-76): those of `MoleculeLJ` and ten more. -/
inductive MultiAttr
  | base (a : Attr)
  | quaternion0 | quaternion1 | quaternion2 | quaternion3
  | angularVelX | angularVelY | angularVelZ | torqueX | torqueY | torqueZ
deriving DecidableEq, Repr

/-- `MoleculeLJ::get<attribute>()` (MoleculeLJ.h:87-122). -/
def Mol.get (m : Mol) : Attr → Word
  | .id => m.id
  | .posX => m.r.x
  | .posY => m.r.y
  | .posZ => m.r.z
  | .velocityX => m.v.x
  | .velocityY => m.v.y
  | .velocityZ => m.v.z
  | .forceX => m.f.x
  | .forceY => m.f.y
  | .forceZ => m.f.z
  | .oldForceX => m.oldF.x
  | .oldForceY => m.oldF.y
  | .oldForceZ => m.oldF.z
  | .typeId => m.typeId
  | .ownershipState => m.own

/-- `MoleculeLJ::set<attribute>(value)` (MoleculeLJ.h:131-166). -/
def Mol.set (m : Mol) (w : Word) : Attr → Mol
  | .id => { m with id := w }
  | .posX => { m with r := { m.r with x := w } }
  | .posY => { m with r := { m.r with y := w } }
  | .posZ => { m with r := { m.r with z := w } }
  | .velocityX => { m with v := { m.v with x := w } }
  | .velocityY => { m with v := { m.v with y := w } }
  | .velocityZ => { m with v := { m.v with z := w } }
  | .forceX => { m with f := { m.f with x := w } }
  | .forceY => { m with f := { m.f with y := w } }
  | .forceZ => { m with f := { m.f with z := w } }
  | .oldForceX => { m with oldF := { m.oldF with x := w } }
  | .oldForceY => { m with oldF := { m.oldF with y := w } }
  | .oldForceZ => { m with oldF := { m.oldF with z := w } }
  | .typeId => { m with typeId := w }
  | .ownershipState => { m with own := w }

/-- `MultisiteMoleculeLJ::get<attribute>()` (MultisiteMoleculeLJ.h:133-189). -/
def MultiMol.get (m : MultiMol) : MultiAttr → Word
  | .base a => m.toMol.get a
  | .quaternion0 => m.q0
  | .quaternion1 => m.q1
  | .quaternion2 => m.q2
  | .quaternion3 => m.q3
  | .angularVelX => m.angularVel.x
  | .angularVelY => m.angularVel.y
  | .angularVelZ => m.angularVel.z
  | .torqueX => m.torque.x
  | .torqueY => m.torque.y
  | .torqueZ => m.torque.z

/-- `MultisiteMoleculeLJ::set<attribute>(value)` (MultisiteMoleculeLJ.h:197-253). -/
def MultiMol.set (m : MultiMol) (w : Word) : MultiAttr → MultiMol
  | .base a => { m with toMol := m.toMol.set w a }
  | .quaternion0 => { m with q0 := w }
  | .quaternion1 => { m with q1 := w }
  | .quaternion2 => { m with q2 := w }
  | .quaternion3 => { m with q3 := w }
  | .angularVelX => { m with angularVel := { m.angularVel with x := w } }
  | .angularVelY => { m with angularVel := { m.angularVel with y := w } }
  | .angularVelZ => { m with angularVel := { m.angularVel with z := w } }
  | .torqueX => { m with torque := { m.torque with x := w } }
  | .torqueY => { m with torque := { m.torque with y := w } }
  | .torqueZ => { m with torque := { m.torque with z := w } }

/-- What the compile-time switch MD_FLEXIBLE_MODE selects: the particle type `P` with its attribute names `A`, the array
`Attributes` and the constant `AttributesSize` (ParticleSerializationTools.cpp:15-68), and the default constructed particle. -/
structure Format (P A : Type) where
  attributes : List A
  attributesSize : Nat
  get : P → A → Word
  set : P → Word → A → P
  default : P

/-- A molecule with all members zero. Simplification: the default constructors initialise some members differently (e.g. the
ownership state to owned); the theorems hold for every default particle. -/
def Mol.zero : Mol := ⟨⟨0, 0, 0⟩, ⟨0, 0, 0⟩, ⟨0, 0, 0⟩, 0, 0, 0, ⟨0, 0, 0⟩⟩

/-- ParticleSerializationTools.cpp:43-58, 67 (single-site). -/
def singleSite : Format Mol Attr where
  attributes := [.id, .posX, .posY, .posZ, .velocityX, .velocityY, .velocityZ, .forceX, .forceY, .forceZ,
    .oldForceX, .oldForceY, .oldForceZ, .typeId, .ownershipState]
  attributesSize := 120
  get := Mol.get
  set := Mol.set
  default := Mol.zero

/-- ParticleSerializationTools.cpp:16-41, 65 (multi-site). -/
def multiSite : Format MultiMol MultiAttr where
  attributes := [.base .id, .base .posX, .base .posY, .base .posZ, .base .velocityX, .base .velocityY, .base .velocityZ,
    .base .forceX, .base .forceY, .base .forceZ, .base .oldForceX, .base .oldForceY, .base .oldForceZ,
    .quaternion0, .quaternion1, .quaternion2, .quaternion3, .angularVelX, .angularVelY, .angularVelZ,
    .torqueX, .torqueY, .torqueZ, .base .typeId, .base .ownershipState]
  attributesSize := 200
  get := MultiMol.get
  set := MultiMol.set
  default := { Mol.zero with q0 := 0, q1 := 0, q2 := 0, q3 := 0, angularVel := ⟨0, 0, 0⟩, torque := ⟨0, 0, 0⟩ }

variable {P A : Type} (fmt : Format P A)

/-- `std::memcpy(&buffer[start], data, size)`: undefined behaviour if it leaves the buffer. -/
def copyInto (buffer : List Byte) (start : Nat) (data : List Byte) : Outcome (List Byte) :=
  if start + data.length ≤ buffer.length then
    .ok (buffer.take start ++ data ++ buffer.drop (start + data.length))
  else .ub

/-- `std::memcpy(&object, &buffer[start], 8)`: undefined behaviour if it leaves the buffer. -/
def copyFrom (buffer : List Byte) (start : Nat) : Outcome Word :=
  if start + 8 ≤ buffer.length then .ok (ofBytes ((buffer.drop start).take 8)) else .ub

/-- One `serializeAttribute` call (ParticleSerializationTools.cpp:76-82) on the state (attributeVector, startIndex). -/
def serializeAttribute (p : P) (st : List Byte × Nat) (a : A) : Outcome (List Byte × Nat) :=
  (copyInto st.1 st.2 (toBytes (fmt.get p a))).bind fun b => .ok (b, st.2 + 8)

/-- The fold expression over all attributes (ParticleSerializationTools.cpp:110). -/
def serializeAttributes (p : P) : List A → List Byte × Nat → Outcome (List Byte × Nat)
  | [], st => .ok st
  | a :: rest, st => (serializeAttribute fmt p st a).bind (serializeAttributes p rest)

/-- `serializeParticle` (ParticleSerializationTools.cpp:104-114, 129-131): appends to `out`. -/
def serializeParticle (p : P) (out : List Byte) : Outcome (List Byte) :=
  (serializeAttributes fmt p fmt.attributes (List.replicate fmt.attributesSize 0, 0)).bind fun st => .ok (out ++ st.1)

/-- One `deserializeAttribute` call (ParticleSerializationTools.cpp:90-97); `data` is the whole received buffer and `offset`
where `particleData` points. State (particle, startIndex). -/
def deserializeAttribute (data : List Byte) (offset : Nat) (st : P × Nat) (a : A) : Outcome (P × Nat) :=
  (copyFrom data (offset + st.2)).bind fun w => .ok (fmt.set st.1 w a, st.2 + 8)

/-- The fold expression over all attributes (ParticleSerializationTools.cpp:124). -/
def deserializeAttributes (data : List Byte) (offset : Nat) : List A → P × Nat → Outcome (P × Nat)
  | [], st => .ok st
  | a :: rest, st => (deserializeAttribute fmt data offset st a).bind (deserializeAttributes data offset rest)

/-- `deserializeParticle` (ParticleSerializationTools.cpp:121-125, 133-135). -/
def deserializeParticle (data : List Byte) (offset : Nat) (p : P) : Outcome P :=
  (deserializeAttributes fmt data offset fmt.attributes (p, 0)).bind fun st => .ok st.1

/-- The loop of `deserializeParticles` (ParticleSerializationTools.cpp:142-145): `i` is the loop variable, `p` the particle
object reused by all iterations, `acc` the vector appended to. `fuel` bounds the iterations; `diverges` if it does not suffice. -/
def deserializeLoop (data : List Byte) : Nat → Nat → P → List P → Outcome (List P)
  | 0, i, _, acc => if i < data.length then .diverges else .ok acc
  | fuel + 1, i, p, acc =>
    if i < data.length then
      (deserializeParticle fmt data i p).bind fun p' =>
        deserializeLoop data fuel (i + fmt.attributesSize) p' (acc ++ [p'])
    else .ok acc

/-- `deserializeParticles` (ParticleSerializationTools.cpp:137-146). -/
def deserializeParticles (data : List Byte) (particles : List P) : Outcome (List P) :=
  deserializeLoop fmt data data.length 0 fmt.default particles

/-- The buffer `sendParticles` fills (ParticleCommunicator.cpp:15-20). -/
def serializeAll : List P → List Byte → Outcome (List Byte)
  | [], out => .ok out
  | p :: ps, out => (serializeParticle fmt p out).bind (serializeAll ps)

/-- The conversion of a `size_t` to the `int` parameter `count` of `MPI_Isend` (ParticleCommunicator.cpp:49,
/repo/src/autopas/utils/WrapMPI.h:717-720): modulo 2^32, two's complement. -/
def toCInt (n : Nat) : Int := Int.bmod n 4294967296

/-- The messages on their way from one rank to another, oldest first: MPI delivers messages of the same sender, receiver, tag and
communicator in the order they were sent. -/
abbrev Channel := List (List Byte)

/-- `sendDataToNeighbor` (ParticleCommunicator.cpp:43-51): the message consists of the first `count` bytes of the buffer. A
negative count is an MPI error, which the default error handler turns into an abort (`throws`). The buffer is kept alive in
`_sendBuffers` until the send has completed, so its contents are those at the time of the call. -/
def sendData (ch : Channel) (buffer : List Byte) : Outcome Channel :=
  let count := toCInt buffer.length
  if count < 0 then .throws else .ok (ch ++ [buffer.take count.toNat])

/-- `sendParticles` (ParticleCommunicator.cpp:15-23). -/
def sendParticles (ch : Channel) (ps : List P) : Outcome Channel :=
  (serializeAll fmt ps []).bind (sendData ch)

/-- `receiveParticles` (ParticleCommunicator.cpp:25-33, 53-63): takes the oldest message and appends its particles to
`received`. With no message on its way the call blocks (`diverges`). -/
def receiveParticles (ch : Channel) (received : List P) : Outcome (Channel × List P) :=
  match ch with
  | [] => .diverges
  | msg :: rest =>
    if msg ≠ [] then (deserializeParticles fmt msg received).bind fun r => .ok (rest, r)
    else .ok (rest, received)

/-- A sequence of sends on one channel. -/
def sendMany : List (List P) → Channel → Outcome Channel
  | [], ch => .ok ch
  | ps :: more, ch => (sendParticles fmt ch ps).bind (sendMany more)

/-- A sequence of receives on one channel, into the given vectors. -/
def receiveMany : List (List P) → Channel → Outcome (Channel × List (List P))
  | [], ch => .ok (ch, [])
  | received :: more, ch =>
    (receiveParticles fmt ch received).bind fun r =>
      (receiveMany more r.1).bind fun s => .ok (s.1, r.2 :: s.2)

end Verif.Ser
