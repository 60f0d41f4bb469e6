import Verif.Model.Configuration
import Verif.Model.Outcome
/-!
Model of parts of /repo/src/autopas/tuning/tuningStrategy/MPIParallelizedStrategy.cpp and
/repo/src/autopas/utils/AutoPasConfigurationCommunicator.cpp.
-/
namespace Verif

/-- The queue of a rank after `reset`, MPIParallelizedStrategy.cpp:116-139. `pick` is the random index drawn by a rank that finds no configuration left; for
an empty queue the range of the distribution is 0 to 2^64-1 and the access is out of bounds. -/
def rankQueue {C : Type} (queue : List C) (numRanks rank pick : Nat) : Outcome (List C) :=
  if rank < queue.length then .ok ((forUp rank queue.length numRanks).flatMap fun i => (queue[i]?).toList)
  else match queue[pick]? with
    | none => .ub
    | some c => .ok [c]

/-- A 64 bit pattern as its 8 bytes, least significant first (`memcpy` of a `double`; the order of the bytes does not matter). -/
def bytesOf (n : Nat) : List Nat := (List.range 8).map fun i => n / 256 ^ i % 256

/-- The inverse `memcpy`. -/
def ofBytes : List Nat → Nat
  | [] => 0
  | b :: bs => b + 256 * ofBytes bs

/-- `serializeConfiguration`, AutoPasConfigurationCommunicator.cpp:183-195. `castToByte` keeps the low 8 bits
(AutoPasConfigurationCommunicator.h:39-42). The cell size factor is its bit pattern. -/
def serializeConfiguration (c : Configuration Nat) : List Nat :=
  [c.container % 256, c.traversal % 256, c.loadEstimator % 256, c.dataLayout % 256, c.newton3 % 256, c.interactionType % 256] ++
    bytesOf c.cellSizeFactor

/-- `serializeConfigurations`, AutoPasConfigurationCommunicator.cpp:197-208. -/
def serializeConfigurations (cs : List (Configuration Nat)) : List Nat := cs.flatMap serializeConfiguration

/-- `deserializeConfiguration`, AutoPasConfigurationCommunicator.cpp:210-219, on an array of 14 bytes. -/
def deserializeConfiguration (bytes : List Nat) : Configuration Nat where
  container := bytes.getD 0 0
  traversal := bytes.getD 1 0
  loadEstimator := bytes.getD 2 0
  dataLayout := bytes.getD 3 0
  newton3 := bytes.getD 4 0
  interactionType := bytes.getD 5 0
  cellSizeFactor := ofBytes (bytes.drop 6)

/-- `deserializeConfigurations`, AutoPasConfigurationCommunicator.cpp:221-236. If the number of bytes is not a multiple of 14, the last copy reads past the end:
undefined behaviour. -/
def deserializeConfigurations (bytes : List Nat) : Outcome (List (Configuration Nat)) :=
  if h : bytes = [] then .ok []
  else if bytes.length < 14 then .ub
  else (deserializeConfigurations (bytes.drop 14)).bind fun rest => .ok (deserializeConfiguration (bytes.take 14) :: rest)
termination_by bytes.length
decreasing_by
  have : bytes.length ≠ 0 := fun hx => h (List.length_eq_zero_iff.1 hx)
  simp only [List.length_drop]; omega

/-- `gatherConfigurations`, AutoPasConfigurationCommunicator.cpp:290-318: what the root rank gets. `MPI_Gatherv` with these displacements concatenates the
contributions in the order of ranks. -/
def gatherConfigurations (perRank : List (List (Configuration Nat))) : Outcome (List (Configuration Nat)) :=
  deserializeConfigurations (perRank.flatMap serializeConfigurations)

/-- `MPI_Allreduce` with `MPI_MINLOC`: the smallest value and, among those, the smallest rank. The list has the values of ranks `r`, `r + 1`, ... -/
def minloc : List Int → Nat → Option (Int × Nat)
  | [], _ => none
  | v :: vs, r => match minloc vs (r + 1) with
    | none => some (v, r)
    | some (w, s) => if v ≤ w then some (v, r) else some (w, s)

/-- `findGloballyBestConfiguration`, AutoPasConfigurationCommunicator.cpp:159-181: what every rank gets, given the local best configuration and time of each rank.
-/
def findGloballyBestConfiguration (ranks : List (Configuration Nat × Int)) : Option (Configuration Nat) :=
  match minloc (ranks.map Prod.snd) 0 with
  | none => none
  | some (_, r) => (ranks[r]?).map fun x => deserializeConfiguration (serializeConfiguration x.1)

end Verif
