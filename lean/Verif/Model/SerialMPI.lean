import Verif.Model.MPITuning
/-!
The replacement of MPI in builds without MPI, /repo/src/autopas/utils/WrapMPI.h:108-256 and 759-993. A buffer is the list of its bytes; reading or writing
beyond it is undefined behaviour. Sizes are those of 64 bit Linux. Counts are natural numbers; null pointers for results, `Error_string`,
`Waitall` and `Finalized` (always true) are not modelled. The comment in the file says that there is one process.
-/
namespace Verif

/-- `AutoPas_MPI_Datatype`, WrapMPI.h:126-139. -/
inductive MPIType
  | byte | cxxBool | char | unsignedChar | unsignedShort | int | unsignedInt | unsignedLong | unsignedLongLong | long | double | longInt
deriving DecidableEq, Repr

/-- The values of the enumerators. -/
def MPIType.value : MPIType → Nat
  | .byte => 1
  | .cxxBool => 1
  | .char => 1
  | .unsignedChar => 1
  | .unsignedShort => 2
  | .int => 4
  | .unsignedInt => 4
  | .unsignedLong => 8
  | .unsignedLongLong => 8
  | .long => 8
  | .double => 8
  | .longInt => 12

/-- `sizeof(datatype_send)`, WrapMPI.h:911-914: the size of the enumeration itself, whose underlying type is `unsigned int`. -/
def mpiEnumSize : Nat := 4

/-- Return values, WrapMPI.h:228-250. -/
def mpiSuccess : Nat := 0
def mpiErrRank : Nat := 6
def mpiErrRoot : Nat := 7
def mpiErrRequest : Nat := 19

/-- `memcpy(dst + off, src, n)`. -/
def memcpyTo (dst : List Nat) (off : Nat) (src : List Nat) (n : Nat) : Outcome (List Nat) :=
  if n ≤ src.length ∧ off + n ≤ dst.length then .ok (dst.take off ++ (src.take n ++ dst.drop (off + n))) else .ub

/-- A send buffer, or `AUTOPAS_MPI_IN_PLACE`. -/
inductive MPISendBuf
  | inPlace
  | bytes (b : List Nat)

/-- `AutoPas_MPI_Reduce`, WrapMPI.h:856-862: the receive buffer afterwards, and the return value. -/
def serialReduce (send : MPISendBuf) (recv : List Nat) (count : Nat) (t : MPIType) : Outcome (List Nat × Nat) :=
  match send with
  | .inPlace => .ok (recv, mpiSuccess)
  | .bytes b => (memcpyTo recv 0 b (t.value * count)).bind fun r => .ok (r, mpiSuccess)

/-- `AutoPas_MPI_Allreduce`, WrapMPI.h:864-867. -/
def serialAllreduce (send : MPISendBuf) (recv : List Nat) (count : Nat) (t : MPIType) : Outcome (List Nat × Nat) := serialReduce send recv count t

/-- The loop in `AutoPas_MPI_Gather`, WrapMPI.h:911-914; `chunk` bytes each time. -/
def gatherLoop (send : List Nat) (chunk : Nat) : Nat → List Nat → Outcome (List Nat)
  | 0, recv => .ok recv
  | n + 1, recv => (gatherLoop send chunk n recv).bind fun r => memcpyTo r (n * chunk) send chunk

/-- `AutoPas_MPI_Gather`, WrapMPI.h:902-917; `count_recv / count_send` is a division of integers. -/
def serialGather (send : MPISendBuf) (countSend : Nat) (recv : List Nat) (countRecv : Nat) (root : Int) : Outcome (List Nat × Nat) :=
  if root ≠ 0 then .ok (recv, mpiErrRoot)
  else match send with
    | .inPlace => .ok (recv, mpiSuccess)
    | .bytes b =>
      if countSend = 0 then .ub
      else (gatherLoop b (countSend * mpiEnumSize) (countRecv / countSend) recv).bind fun r => .ok (r, mpiSuccess)

/-- `AutoPas_MPI_Gatherv`, WrapMPI.h:919-926: the receive buffer begins at `displs[0] * datatype_recv`. -/
def serialGatherv (send : MPISendBuf) (countSend : Nat) (recv : List Nat) (countRecv displ : Nat) (tRecv : MPIType) (root : Int) : Outcome (List Nat × Nat) :=
  let off := displ * tRecv.value
  if recv.length < off then .ub
  else (serialGather send countSend (recv.drop off) countRecv root).bind fun r => .ok (recv.take off ++ r.1, r.2)

/-- `AutoPas_MPI_Allgather`, WrapMPI.h:928-932. -/
def serialAllgather (send : MPISendBuf) (countSend : Nat) (recv : List Nat) (countRecv : Nat) : Outcome (List Nat × Nat) :=
  serialGather send countSend recv countRecv 0

/-- `AutoPas_MPI_Bcast`, WrapMPI.h:837-843: the buffer is not touched. -/
def serialBcast (buffer : List Nat) (root : Int) : List Nat × Nat := (buffer, if root > 0 then mpiErrRank else mpiSuccess)

/-- `AutoPas_MPI_Request`, WrapMPI.h:217-221. -/
inductive MPIRequest
  | null | completed | incomplete
deriving DecidableEq, Repr

/-- `AutoPas_MPI_Ibcast`, WrapMPI.h:845-854; `AutoPas_MPI_Iallreduce` and `AutoPas_MPI_Ibarrier`, :869-880, give `completed`. -/
def serialIbcast (buffer : List Nat) (root : Int) : List Nat × MPIRequest × Nat :=
  if root > 0 then (buffer, .null, mpiErrRank) else (buffer, .completed, mpiSuccess)
def serialIallreduce (send : MPISendBuf) (recv : List Nat) (count : Nat) (t : MPIType) : Outcome (List Nat × MPIRequest × Nat) :=
  (serialAllreduce send recv count t).bind fun r => .ok (r.1, .completed, r.2)
def serialIbarrier : MPIRequest × Nat := (.completed, mpiSuccess)

/-- What can be done with a request. -/
inductive MPIRequestOp
  | test | wait | free
deriving DecidableEq, Repr

/-- `AutoPas_MPI_Test`, `AutoPas_MPI_Wait`, `AutoPas_MPI_Request_free`, WrapMPI.h:882-900: the request afterwards, the return value, and `*flag`. -/
def serialRequestOp (r : MPIRequest) : MPIRequestOp → MPIRequest × Nat × Bool
  | .test => (.null, mpiSuccess, true)
  | .wait => (.null, mpiSuccess, true)
  | .free => if r ≠ .completed then (r, mpiErrRequest, true) else (.null, mpiSuccess, true)

/-- `AutoPas_MPI_Comm`, WrapMPI.h:113-116. -/
inductive MPIComm
  | null | world
deriving DecidableEq, Repr

/-- `AutoPas_MPI_Comm_size`, `_rank`, `_dup`, `_free`, WrapMPI.h:799-823, `_split`, :934-938. -/
def serialCommSize (_ : MPIComm) : Nat := 1
def serialCommRank (_ : MPIComm) : Nat := 0
def serialCommDup (c : MPIComm) : MPIComm := c
def serialCommFree (_ : MPIComm) : MPIComm := .null
def serialCommSplit (c : MPIComm) (_color _key : Int) : MPIComm := c

/-- `AutoPas_MPI_Cart_create`, `_get`, `_coords`, `_rank`, `AutoPas_MPI_Dims_create`, WrapMPI.h:940-968. -/
def serialCartCreate (_ : MPIComm) : MPIComm := .world
def serialCartGet (dims periods coords : List Int) : List Int × List Int × List Int := (dims, periods, coords)
def serialCartCoords (maxdims : Nat) : List Int := List.replicate maxdims 0
def serialCartRank (_coords : List Int) : Nat := 0
def serialDimsCreate (ndims : Nat) : List Int := List.replicate ndims 1

/-- `AutoPas_MPI_Send` and `AutoPas_MPI_Recv`, WrapMPI.h:825-835: return value; for `Recv` also the buffer. -/
def serialSend (_buf : List Nat) (_dest : Int) : Nat := mpiSuccess
def serialRecv (buf : List Nat) (_source : Int) : List Nat × Nat := (buf, mpiErrRank)

/-- `AutoPas_MPI_Isend`, `_Irecv`, `_Probe`, `_Get_count`, WrapMPI.h:970-987: the request is left as it is. -/
def serialIsend (_buf : List Nat) (_dest : Int) (r : MPIRequest) : MPIRequest × Nat := (r, mpiSuccess)
def serialIrecv (buf : List Nat) (_source : Int) (r : MPIRequest) : List Nat × MPIRequest × Nat := (buf, r, mpiSuccess)
def serialGetCount : Nat := 0

/-! ### Functions of AutoPas that use it -/

/-- An `int` in memory, least significant byte first. -/
def intBytes (n : Nat) : List Nat := (List.range 4).map fun i => n / 256 ^ i % 256

/-- `gatherConfigurations`, /repo/src/autopas/utils/AutoPasConfigurationCommunicator.cpp:290-318, without MPI: one rank, the root. -/
def serialGatherConfigurations (cs : List (Configuration Nat)) : Outcome (List (Configuration Nat)) :=
  let ser := serializeConfigurations cs
  (serialGather (.bytes (intBytes ser.length)) 1 (intBytes 0) 1 0).bind fun g =>
    let total := ofBytes g.1
    (serialGatherv (.bytes ser) ser.length (List.replicate total 0) total 0 .byte 0).bind fun r => deserializeConfigurations r.1

/-- `findGloballyBestConfiguration`, AutoPasConfigurationCommunicator.cpp:159-181, without MPI. `localOptimum` is the 8 bytes of the time, the 4 bytes of the
rank and 4 bytes of padding, `globalOptimum` is uninitialised (`garbage`). The return value of the broadcast, which the code drops, is given as well. -/
def serialFindBest (garbage padding : List Nat) (c : Configuration Nat) (time : Nat) : Outcome (Configuration Nat × Nat) :=
  let localOptimum := bytesOf time ++ intBytes (serialCommRank .world) ++ padding
  (serialAllreduce (.bytes localOptimum) garbage 1 .longInt).bind fun r =>
    let root := ofBytes ((r.1.drop 8).take 4)
    let b := serialBcast (serializeConfiguration c) root
    .ok (deserializeConfiguration b.1, b.2)

end Verif
