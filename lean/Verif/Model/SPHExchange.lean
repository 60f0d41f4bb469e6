import Verif.Model.MDDomain
import Mathlib.Data.Rat.Floor
import Mathlib.Logic.Function.Basic
/-!
The exchange of particles in the examples for smoothed particle hydrodynamics: /repo/examples/sph-mpi/sph-main-mpi.cpp (several ranks) and
/repo/examples/sph/sph-main.cpp (one). `double` is modelled by exact rationals. What belongs to a rank is a function of its coordinates in the
Cartesian grid of ranks. A particle is its identity, position and state; the other members are copied with it (C96). What the exchange of messages
itself does, whatever the schedule, is in `sphExStep` below; the functions before it describe the messages.
-/
namespace Verif

/-- What all ranks know: the global box, `gridSize` of `MPI_Dims_create`, and the cutoff. -/
structure SPHGrid where
  gMin : V3 Rat
  gMax : V3 Rat
  grid : V3 Nat
  cutoff : Rat

/-- `localMin[i]` and `localMax[i]` for the coordinate `c`, `getDecomposition`, sph-main-mpi.cpp:452-460. -/
def sphBounds (gMin gMax : Rat) (n c : Nat) : Rat × Rat :=
  let lo : Rat := c * (gMax - gMin) / n + gMin
  let hi : Rat := (c + 1) * (gMax - gMin) / n + gMin
  if c = 0 then (gMin, hi) else if c = n - 1 then (lo, gMax) else (lo, hi)

/-- `boxMin[d]` and `boxMax[d]` of rank `r`. -/
def SPHGrid.bounds (G : SPHGrid) (r : V3 Nat) (d : Axis) : Rat × Rat := sphBounds (G.gMin.at d) (G.gMax.at d) (G.grid.at d) (r.at d)

/-- The local box. -/
def SPHGrid.lo (G : SPHGrid) (r : V3 Nat) : V3 Rat := ⟨(G.bounds r .x).1, (G.bounds r .y).1, (G.bounds r .z).1⟩
def SPHGrid.hi (G : SPHGrid) (r : V3 Nat) : V3 Rat := ⟨(G.bounds r .x).2, (G.bounds r .y).2, (G.bounds r .z).2⟩

/-- The values of `diff` in the order of the loops, sph-main-mpi.cpp:293-300. -/
def sphDiffs : List (V3 Int) :=
  (([-1, 0, 1].flatMap fun i => [-1, 0, 1].flatMap fun j => [-1, 0, 1].map fun k => (⟨i, j, k⟩ : V3 Int)).filter fun d =>
    !(decide (d.x = 0) && decide (d.y = 0) && decide (d.z = 0)))

/-- `getSendRecvPartner(diff, comm, false)`, sph-main-mpi.cpp:136-151, one coordinate. The grid is periodic, `MPI_Cart_rank` brings a coordinate that
is -1 into the range. -/
def sphSendCoord (n c : Nat) (diff : Int) : Nat := (((c : Int) + diff) % (n : Int)).toNat

/-- `getSendRecvPartner(diff, comm, true)`. -/
def sphRecvCoord (n c : Nat) (diff : Int) : Nat := (((c : Int) + n - diff) % (n : Int)).toNat

def SPHGrid.sendPartner (G : SPHGrid) (r : V3 Nat) (diff : V3 Int) : V3 Nat :=
  ⟨sphSendCoord G.grid.x r.x diff.x, sphSendCoord G.grid.y r.y diff.y, sphSendCoord G.grid.z r.z diff.z⟩
def SPHGrid.recvPartner (G : SPHGrid) (r : V3 Nat) (diff : V3 Int) : V3 Nat :=
  ⟨sphRecvCoord G.grid.x r.x diff.x, sphRecvCoord G.grid.y r.y diff.y, sphRecvCoord G.grid.z r.z diff.z⟩

/-- `sendMin`, `sendMax` and `shift` of one dimension. -/
structure SPHSend where
  lo : Rat
  hi : Rat
  shift : Rat

/-- `getSendHalo`, sph-main-mpi.cpp:201-224. -/
def sphSendHalo (boxMin boxMax : Rat) (diff : Int) (cutoff gMin gMax : Rat) : SPHSend :=
  if diff = 0 then ⟨boxMin, boxMax, 0⟩
  else if diff = -1 then ⟨boxMin, boxMin + cutoff, if boxMin = gMin then gMax - gMin else 0⟩
  else ⟨boxMax - cutoff, boxMax, if boxMax = gMax then gMin - gMax else 0⟩

/-- `getSendLeaving`, sph-main-mpi.cpp:239-262. -/
def sphSendLeaving (boxMin boxMax : Rat) (diff : Int) (cutoff gMin gMax : Rat) : SPHSend :=
  if diff = 0 then ⟨boxMin, boxMax, 0⟩
  else if diff = -1 then ⟨boxMin - cutoff, boxMin, if boxMin = gMin then gMax - gMin else 0⟩
  else ⟨boxMax, boxMax + cutoff, if boxMax = gMax then gMin - gMax else 0⟩

/-- `p.addR(shift)`. -/
def Particle.addR (p : Particle) (s : V3 Rat) : Particle := { p with pos := ⟨p.pos.x + s.x, p.pos.y + s.y, p.pos.z + s.z⟩ }

/-- The particles of a list in the region, shifted: sph-main-mpi.cpp:302-315 and 340-354. -/
def sphSelect (sx sy sz : SPHSend) (l : List Particle) : List Particle :=
  (l.filter fun p => inBoxB p.pos ⟨sx.lo, sy.lo, sz.lo⟩ ⟨sx.hi, sy.hi, sz.hi⟩).map fun p => p.addR ⟨sx.shift, sy.shift, sz.shift⟩

/-- What rank `s` sends in `updateHaloParticles` for `diff`; `own s` are its owned particles. -/
def SPHGrid.haloMessage (G : SPHGrid) (own : V3 Nat → List Particle) (s : V3 Nat) (diff : V3 Int) : List Particle :=
  let send : Axis → SPHSend := fun d =>
    sphSendHalo (G.bounds s d).1 (G.bounds s d).2 (diff.at d) G.cutoff (G.gMin.at d) (G.gMax.at d)
  sphSelect (send .x) (send .y) (send .z) (own s)

/-- What rank `s` sends in `periodicBoundaryUpdate` for `diff`; `invalid s` is what `updateContainer` returned. -/
def SPHGrid.leavingMessage (G : SPHGrid) (invalid : V3 Nat → List Particle) (s : V3 Nat) (diff : V3 Int) : List Particle :=
  let send : Axis → SPHSend := fun d =>
    sphSendLeaving (G.bounds s d).1 (G.bounds s d).2 (diff.at d) G.cutoff (G.gMin.at d) (G.gMax.at d)
  sphSelect (send .x) (send .y) (send .z) (invalid s)

/-- The particles given to `addHaloParticle`, sph-main-mpi.cpp:319-323. -/
def SPHGrid.halo (G : SPHGrid) (own : V3 Nat → List Particle) (r : V3 Nat) : List Particle :=
  sphDiffs.flatMap fun diff => G.haloMessage own (G.recvPartner r diff) diff

/-- A coordinate on the upper end of the box is made a bit smaller, sph-main-mpi.cpp:361-370; `below` is `nextafter(., 0)`. -/
def SPHGrid.correct (G : SPHGrid) (below : Rat → Rat) (r : V3 Nat) (p : Particle) : Particle :=
  let c : Axis → Rat := fun d => if p.pos.at d = (G.hi r).at d then below (p.pos.at d) else p.pos.at d
  { p with pos := ⟨c .x, c .y, c .z⟩ }

/-- The particles given to `addParticle`, sph-main-mpi.cpp:358-372. -/
def SPHGrid.entering (G : SPHGrid) (below : Rat → Rat) (invalid : V3 Nat → List Particle) (r : V3 Nat) : List Particle :=
  (sphDiffs.flatMap fun diff => G.leavingMessage invalid (G.recvPartner r diff) diff).map (G.correct below r)

/-! ### One rank, sph-main.cpp -/

/-- `getRequiredHalo`, sph-main.cpp:149-165. -/
def sphRequiredHalo (boxMin boxMax : Rat) (diff : Int) (cutoff : Rat) : SPHSend :=
  if diff = 0 then ⟨boxMin, boxMax, 0⟩
  else if diff = -1 then ⟨boxMax - cutoff, boxMax, boxMin - boxMax⟩
  else ⟨boxMin, boxMin + cutoff, boxMax - boxMin⟩

/-- The particles given to `addHaloParticle`, `updateHaloParticles`, sph-main.cpp:173-206. -/
def sphSerialHalo (bMin bMax : V3 Rat) (cutoff : Rat) (own : List Particle) : List Particle :=
  sphDiffs.flatMap fun diff =>
    let send : Axis → SPHSend := fun d => sphRequiredHalo (bMin.at d) (bMax.at d) (diff.at d) cutoff
    sphSelect (send .x) (send .y) (send .z) own

/-- One coordinate in `addEnteringParticles`, sph-main.cpp:121-133; `below` is `std::nextafter(boxMax[dim], -1)`. -/
def sphReenter (bMin bMax below x : Rat) : Rat :=
  if x < bMin then min below (x + (bMax - bMin)) else if bMax ≤ x then max bMin (x - (bMax - bMin)) else x

/-- The particles given to `addParticle`, sph-main.cpp:117-137. -/
def sphSerialEntering (bMin bMax below : V3 Rat) (invalid : List Particle) : List Particle :=
  invalid.map fun p => { p with pos := ⟨sphReenter bMin.x bMax.x below.x p.pos.x, sphReenter bMin.y bMax.y below.y p.pos.y,
    sphReenter bMin.z bMax.z below.z p.pos.z⟩ }

/-! ### Initial particles -/

/-- `for (double x = from; x < until; x += dx)`: `x` is `from + k dx`, without rounding. -/
def sphLoop (from_ until_ dx : Rat) : List Rat := (List.range ⌈(until_ - from_) / dx⌉.toNat).map fun k : Nat => from_ + k * dx

/-- The positions in the order of the loops of `SetupIC`, sph-main-mpi.cpp:22-48, sph-main.cpp:18-44. -/
def sphPositions (bMax : V3 Rat) (dx : Rat) : List (V3 Rat) :=
  ((sphLoop 0 (bMax.x * (1 / 2)) dx).flatMap fun x => (sphLoop 0 bMax.y dx).flatMap fun y => (sphLoop 0 bMax.z dx).map fun z => ⟨x, y, z⟩) ++
  (sphLoop (bMax.x * (1 / 2)) bMax.x (dx * 2)).flatMap fun x => (sphLoop 0 bMax.y dx).flatMap fun y => (sphLoop 0 bMax.z dx).map fun z => ⟨x, y, z⟩

/-- All particles; the identity is the counter `i`. -/
def sphParticles (bMax : V3 Rat) (dx : Rat) : List Particle := (sphPositions bMax dx).zipIdx.map fun p => ⟨p.2, p.1, .owned⟩

/-- `SetupIC` on rank `r`: every rank counts all particles and adds those in its box. -/
def SPHGrid.setup (G : SPHGrid) (dx : Rat) (r : V3 Nat) : List Particle :=
  (sphParticles G.gMax dx).filter fun p => inBoxB p.pos (G.lo r) (G.hi r)

/-- The mass a particle gets, sph-main-mpi.cpp:53-55, on every rank. -/
def sphMass (bMax : V3 Rat) (dx : Rat) : Rat := 3 / 4 * bMax.x * bMax.y * bMax.z / ((sphParticles bMax dx).length : Rat)

/-! ### The messages -/

/-- Where a rank is in a round of the exchange, sph-main-mpi.cpp:316-325: `issueSend`, `receive`, `waitSend`. -/
inductive SPHPhase
  | send | recv | wait
deriving DecidableEq

/-- The state of all ranks: the number of finished rounds, what comes next, what was received so far in the rounds, and for every sender and receiver the
messages on the way (MPI keeps the order of messages with the same tag). -/
structure SPHNet (R M : Type) where
  round : R → Nat
  phase : R → SPHPhase
  log : R → List M
  chan : R → R → List M

/-- What a run of the exchange consists of: `rounds` rounds; `msg r k log` is the message of rank `r` in round `k` when `log` is what it has received
before, `dst r k` and `src r k` are its partners. `eager r k`: MPI buffers the message, so that `MPI_Wait` need not wait for the receiver. -/
structure SPHRounds (R M : Type) where
  rounds : Nat
  msg : R → Nat → List M → M
  dst : R → Nat → R
  src : R → Nat → R
  eager : R → Nat → Bool

variable {R M : Type} [DecidableEq R]

def SPHNet.init : SPHNet R M := ⟨fun _ => 0, fun _ => .send, fun _ => [], fun _ _ => []⟩

/-- Number of messages that rank `r` has taken, and of those it has sent. -/
def SPHNet.taken (N : SPHNet R M) (r : R) : Nat := N.round r + (if N.phase r = .wait then 1 else 0)
def SPHNet.sent (N : SPHNet R M) (r : R) : Nat := N.round r + (if N.phase r = .send then 0 else 1)

/-- The next action of rank `r`; `none` if it has to wait or has finished. `MPI_Isend` (:160) puts the message on its way, `MPI_Probe` and `MPI_Recv`
(:168-173) take the first one from the partner, `MPI_Wait` (:181) returns if the message was buffered or the partner has received it. -/
def sphExStep (P : SPHRounds R M) (N : SPHNet R M) (r : R) : Option (SPHNet R M) :=
  let k := N.round r
  if k < P.rounds then
    match N.phase r with
    | .send =>
      some { N with
        phase := Function.update N.phase r .recv
        chan := Function.update N.chan r (Function.update (N.chan r) (P.dst r k) (N.chan r (P.dst r k) ++ [P.msg r k (N.log r)])) }
    | .recv =>
      match N.chan (P.src r k) r with
      | [] => none
      | m :: rest =>
        some { N with
          phase := Function.update N.phase r .wait
          log := Function.update N.log r (N.log r ++ [m])
          chan := Function.update N.chan (P.src r k) (Function.update (N.chan (P.src r k)) r rest) }
    | .wait =>
      if P.eager r k = true ∨ k < N.taken (P.dst r k) then
        some { N with round := Function.update N.round r (k + 1), phase := Function.update N.phase r .send }
      else none
  else none

/-- An execution: `sched` are the ranks in the order in which they act. -/
def sphExRun (P : SPHRounds R M) (sched : List R) : Option (SPHNet R M) := sched.foldlM (sphExStep P) .init

/-- The 26 rounds of `updateHaloParticles`, sph-main-mpi.cpp:276-325, and of `periodicBoundaryUpdate`, :327-380: `out r diff` is `sendParticles`, sent to
`getSendRecvPartner(diff, comm, false)`, :154-162; what comes is received from `getSendRecvPartner(diff, comm, true)`, :165-176. -/
def SPHGrid.exchange (G : SPHGrid) (out : V3 Nat → V3 Int → List Particle) (eager : V3 Nat → Nat → Bool) : SPHRounds (V3 Nat) (List Particle) where
  rounds := sphDiffs.length
  msg := fun r k _ => out r (sphDiffs.getD k ⟨0, 0, 0⟩)
  dst := fun r k => G.sendPartner r (sphDiffs.getD k ⟨0, 0, 0⟩)
  src := fun r k => G.recvPartner r (sphDiffs.getD k ⟨0, 0, 0⟩)
  eager := eager

end Verif
