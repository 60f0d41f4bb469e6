import Verif.Model.SerialMPI
/-!
What the MPI standard says about collective operations, for any number of processes. A buffer of `count` elements of a type is a list of bytes; elements are
`extent` bytes apart and have `typeBytes` significant bytes each.
-/
namespace Verif.Spec

/-- Distance of elements in memory: `struct { long; int; }` has padding at its end. -/
def extent : MPIType → Nat
  | .byte | .cxxBool | .char | .unsignedChar => 1
  | .unsignedShort => 2
  | .int | .unsignedInt => 4
  | .unsignedLong | .unsignedLongLong | .long | .double => 8
  | .longInt => 16

def typeBytes : MPIType → Nat
  | .longInt => 12
  | t => extent t

/-- Element `i` of a buffer. -/
def mpiElement (t : MPIType) (buf : List Nat) (i : Nat) : List Nat := (buf.drop (i * extent t)).take (typeBytes t)

/-- Element `i` of the result of `MPI_Reduce` and `MPI_Allreduce`: the elements of all processes, combined by the operation. -/
def reducedElement (op : List Nat → List Nat → List Nat) (t : MPIType) (i : Nat) : List (List Nat) → List Nat
  | [] => []
  | b :: bs => bs.foldl (fun acc c => op acc (mpiElement t c i)) (mpiElement t b i)

/-- `MPI_Gather`, `MPI_Allgather`: the buffers of the processes one after the other. -/
def Gathered (t : MPIType) (count : Nat) (sends : List (List Nat)) (recv : List Nat) : Prop :=
  ∀ r (hr : r < sends.length), ∀ i < count, mpiElement t recv (r * count + i) = mpiElement t sends[r] i

/-- A buffer for exactly `count` elements. -/
def BufferFor (t : MPIType) (count : Nat) (buf : List Nat) : Prop := buf.length = count * extent t

end Verif.Spec
