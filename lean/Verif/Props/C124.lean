import Verif.Spec.SerialMPI
import Verif.Props.C41
import Mathlib.Data.List.Basic
import Mathlib.Tactic.Linarith
/-!
# C124 — without MPI the MPI wrapper behaves as MPI with one process

Reductions give the contribution of the only process, for every operation; broadcasts change nothing; requests complete, and are released once; the only
process has coordinates zero in every grid. The tuning of several ranks then returns its own optimum.

Gathering is wrong unless the elements are four bytes wide: it copies `sizeof` of the enumeration instead of the size of the type
(`C124_gather_iff`, `C124_violated_gather_double`, `C124_violated_gather_bytes`, `C124_violated_gather_nothing`). So `gatherConfigurations` without MPI is
always undefined behaviour (`C124_violated_gatherConfigurations`). Arrays of `long` and `int` are not reduced completely (`C124_violated_minloc`), messages to
oneself are lost (`C124_violated_self_message`), and `Cart_get` sets nothing (`C124_violated_cart_get`).
-/
namespace Verif
open Spec

theorem memcpyTo_ok {dst src : List Nat} {off n : Nat} (h1 : n ≤ src.length) (h2 : off + n ≤ dst.length) :
    memcpyTo dst off src n = .ok (dst.take off ++ (src.take n ++ dst.drop (off + n))) := by unfold memcpyTo; rw [if_pos ⟨h1, h2⟩]

theorem memcpyTo_ub {dst src : List Nat} {off n : Nat} (h : src.length < n ∨ dst.length < off + n) : memcpyTo dst off src n = .ub := by
  unfold memcpyTo; rw [if_neg]; rintro ⟨h1, h2⟩; omega

theorem value_eq_extent {t : MPIType} (h : t ≠ .longInt) : t.value = extent t ∧ typeBytes t = extent t := by
  cases t <;> first | exact absurd rfl h | exact ⟨rfl, rfl⟩

theorem typeBytes_value (t : MPIType) : typeBytes t = t.value := by cases t <;> rfl

theorem typeBytes_le (t : MPIType) : typeBytes t ≤ extent t := by cases t <;> decide

theorem element_copy {send recv : List Nat} {n : Nat} {t : MPIType} (hn : n ≤ send.length) {i : Nat} (hi : i * extent t + typeBytes t ≤ n) :
    mpiElement t (send.take n ++ recv.drop n) i = mpiElement t send i := by
  unfold mpiElement
  rw [List.drop_append_of_le_length (by rw [List.length_take]; omega), List.take_append_of_le_length (by
    rw [List.length_drop, List.length_take]; omega), List.drop_take, List.take_take, Nat.min_eq_left (by omega)]

/-- A reduction over the only process, whatever the operation: all elements are those of its contribution, what is behind them in the receive buffer stays.
For elements with padding only single elements. -/
theorem C124_reduce_partial (op : List Nat → List Nat → List Nat) {t : MPIType} {count : Nat} (ht : t ≠ .longInt ∨ count ≤ 1) {send recv : List Nat}
    (hs : count * extent t ≤ send.length) (hr : count * extent t ≤ recv.length) :
    ∃ out, serialReduce (.bytes send) recv count t = .ok (out, mpiSuccess) ∧ serialAllreduce (.bytes send) recv count t = .ok (out, mpiSuccess) ∧
      serialIallreduce (.bytes send) recv count t = .ok (out, .completed, mpiSuccess) ∧ out.length = recv.length ∧
      (∀ i < count, mpiElement t out i = reducedElement op t i [send]) ∧ out.drop (count * extent t) = recv.drop (count * extent t) := by
  have hle : t.value * count ≤ count * extent t := by
    have := typeBytes_le t; rw [typeBytes_value] at this; rw [Nat.mul_comm]; exact Nat.mul_le_mul_left _ this
  have hred : serialReduce (.bytes send) recv count t = .ok (send.take (t.value * count) ++ recv.drop (t.value * count), mpiSuccess) := by
    unfold serialReduce
    simp only
    rw [memcpyTo_ok (by omega) (by omega)]
    simp [Outcome.bind]
  have hlen : (send.take (t.value * count)).length = t.value * count := by rw [List.length_take]; omega
  refine ⟨_, hred, hred, ?_, ?_, ?_, ?_⟩
  · unfold serialIallreduce serialAllreduce; rw [hred]; rfl
  · rw [List.length_append, hlen, List.length_drop]; omega
  · intro i hi
    show _ = mpiElement t send i
    refine element_copy (by omega) ?_
    rcases ht with ht | ht
    · obtain ⟨h1, h2⟩ := value_eq_extent ht
      rw [h1, h2]
      have := Nat.mul_le_mul_right (extent t) (Nat.succ_le_of_lt hi)
      rw [Nat.succ_mul] at this
      rw [Nat.mul_comm (extent t) count]; omega
    · have hi0 : i = 0 := by omega
      have hc1 : count = 1 := by omega
      subst hi0 hc1
      rw [typeBytes_value]; omega
  · rw [List.drop_append, hlen, List.drop_eq_nil_of_le (by rw [hlen]; exact hle), List.nil_append, List.drop_drop]
    congr 1
    omega

/-- In place: the contribution is what is in the receive buffer. -/
theorem C124_reduce_in_place (op : List Nat → List Nat → List Nat) (t : MPIType) (count : Nat) (recv : List Nat) :
    ∃ out, serialReduce .inPlace recv count t = .ok (out, mpiSuccess) ∧ out.length = recv.length ∧
      ∀ i < count, mpiElement t out i = reducedElement op t i [recv] := ⟨recv, rfl, rfl, fun _ _ => rfl⟩

theorem gatherOne (send recv : List Nat) {count : Nat} (hc : 0 < count) :
    serialGather (.bytes send) count recv count 0 = (memcpyTo recv 0 send (count * mpiEnumSize)).bind fun r => .ok (r, mpiSuccess) := by
  unfold serialGather
  simp only [ne_eq, not_true_eq_false, if_false]
  rw [if_neg hc.ne', Nat.div_self hc]
  unfold gatherLoop gatherLoop
  show ((Outcome.bind (.ok recv) _)).bind _ = _
  simp [Outcome.bind]

/-- Gathering four byte elements gives the elements of the only process, also with a displacement; what else is in the receive buffer stays. -/
theorem C124_gather_partial {t : MPIType} (ht : extent t = 4) {count displ : Nat} (hc : 0 < count) {send recv : List Nat} (hs : count * extent t ≤ send.length)
    (hr : (displ + count) * extent t ≤ recv.length) :
    ∃ out, serialGatherv (.bytes send) count recv count displ t 0 = .ok (out, mpiSuccess) ∧ out.length = recv.length ∧
      out.take (displ * extent t) = recv.take (displ * extent t) ∧ out.drop ((displ + count) * extent t) = recv.drop ((displ + count) * extent t) ∧
      Gathered t count [send] (out.drop (displ * extent t)) := by
  have hne : t ≠ .longInt := by rintro rfl; exact absurd ht (by decide)
  obtain ⟨h1, h2⟩ := value_eq_extent hne
  rw [Nat.add_mul] at hr ⊢
  have hcm : count * mpiEnumSize = count * extent t := by rw [ht]; rfl
  have hg : serialGather (.bytes send) count (recv.drop (displ * extent t)) count 0 =
      .ok (send.take (count * extent t) ++ (recv.drop (displ * extent t)).drop (count * extent t), mpiSuccess) := by
    rw [gatherOne _ _ hc, hcm, memcpyTo_ok (by omega) (by rw [List.length_drop]; omega)]
    simp [Outcome.bind]
  have hlt : (recv.take (displ * extent t)).length = displ * extent t := by rw [List.length_take]; omega
  have hls : (send.take (count * extent t)).length = count * extent t := by rw [List.length_take]; omega
  refine ⟨recv.take (displ * extent t) ++ (send.take (count * extent t) ++ (recv.drop (displ * extent t)).drop (count * extent t)), ?_, ?_, ?_, ?_, ?_⟩
  · unfold serialGatherv
    rw [h1, if_neg (by omega), hg]
    rfl
  · rw [List.length_append, List.length_append, hlt, hls, List.length_drop, List.length_drop]; omega
  · rw [List.take_append_of_le_length (by omega), List.take_take, Nat.min_self]
  · rw [List.drop_append, hlt, List.drop_eq_nil_of_le (by omega), List.nil_append, Nat.add_sub_cancel_left, List.drop_append, hls,
      List.drop_eq_nil_of_le (by omega), List.nil_append, Nat.sub_self, List.drop_zero, List.drop_drop]
  · rw [List.drop_append, hlt, List.drop_eq_nil_of_le (by omega), List.nil_append, Nat.sub_self, List.drop_zero]
    intro r hr' i hi
    have hr0 : r = 0 := by simp only [List.length_singleton] at hr'; omega
    subst hr0
    rw [Nat.zero_mul, Nat.zero_add]
    refine element_copy (by omega) ?_
    rw [h2]
    have := Nat.mul_le_mul_right (extent t) (Nat.succ_le_of_lt hi)
    rw [Nat.succ_mul] at this
    omega

theorem gatherLoop_spec {send : List Nat} {chunk : Nat} (hs : chunk ≤ send.length) : ∀ (k : Nat) (recv : List Nat), k * chunk ≤ recv.length →
    gatherLoop send chunk k recv = .ok ((List.replicate k (send.take chunk)).flatten ++ recv.drop (k * chunk))
  | 0, recv, _ => by simp [gatherLoop]
  | k + 1, recv, h => by
    rw [Nat.succ_mul] at h
    have hl : ((List.replicate k (send.take chunk)).flatten).length = k * chunk := by
      rw [List.length_flatten, List.map_replicate, List.sum_replicate_nat, List.length_take, Nat.min_eq_left hs]
    unfold gatherLoop
    rw [gatherLoop_spec hs k recv (by omega)]
    show memcpyTo _ _ _ _ = _
    rw [memcpyTo_ok hs (by rw [List.length_append, hl, List.length_drop]; omega), List.take_left' hl, List.drop_append, hl, List.drop_eq_nil_of_le (by omega),
      List.nil_append, Nat.add_sub_cancel_left, List.drop_drop, List.replicate_succ', List.flatten_append, Nat.succ_mul]
    simp

/-- A receive buffer for several contributions gets as many copies of that of the only process, one behind the other; a root that does not exist is refused,
and in place nothing moves. -/
theorem C124_gather_copies {t : MPIType} (ht : extent t = 4) {count : Nat} (hc : 0 < count) (k : Nat) {send recv : List Nat} (hs : BufferFor t count send)
    (hr : BufferFor t (k * count) recv) :
    (∃ out, serialGather (.bytes send) count recv (k * count) 0 = .ok (out, mpiSuccess) ∧ out.length = recv.length ∧ Gathered t count (List.replicate k send) out) ∧
    (∀ root : Int, root ≠ 0 → ∃ e, serialGather (.bytes send) count recv (k * count) root = .ok (recv, e) ∧ e ≠ mpiSuccess) ∧
    serialGather .inPlace count recv (k * count) 0 = .ok (recv, mpiSuccess) := by
  unfold BufferFor at hs hr
  have hne : t ≠ .longInt := by rintro rfl; exact absurd ht (by decide)
  obtain ⟨-, h2⟩ := value_eq_extent hne
  have hcm : count * mpiEnumSize = count * extent t := by rw [ht]; rfl
  refine ⟨?_, fun root h => ⟨mpiErrRoot, by unfold serialGather; rw [if_pos h], by decide⟩, by simp [serialGather]⟩
  have hlen : ∀ k, ((List.replicate k send).flatten).length = k * (count * extent t) := by
    intro k; rw [List.length_flatten, List.map_replicate, List.sum_replicate_nat, hs]
  have ht' : send.take (count * extent t) = send := List.take_of_length_le hs.le
  have hg := gatherLoop_spec (send := send) (chunk := count * extent t) hs.ge k recv (by rw [hr, Nat.mul_assoc])
  have hd : recv.drop (k * (count * extent t)) = [] := List.drop_eq_nil_of_le (by rw [hr, Nat.mul_assoc])
  rw [ht', hd, List.append_nil] at hg
  refine ⟨(List.replicate k send).flatten, ?_, by rw [hlen, hr, Nat.mul_assoc], ?_⟩
  · unfold serialGather
    simp only [ne_eq, not_true_eq_false, if_false]
    rw [if_neg hc.ne', Nat.mul_div_cancel _ hc, hcm, hg]
    rfl
  · intro r hr' i hi
    rw [List.length_replicate] at hr'
    have he : List.replicate k send = List.replicate r send ++ send :: List.replicate (k - r - 1) send := by
      rw [← List.replicate_succ, List.replicate_append_replicate]; congr 1; omega
    have hi' := Nat.mul_le_mul_right (extent t) (Nat.succ_le_of_lt hi)
    rw [Nat.succ_mul] at hi'
    rw [List.getElem_replicate, he, List.flatten_append, List.flatten_cons]
    unfold mpiElement
    rw [Nat.add_mul, List.drop_append, hlen, List.drop_eq_nil_of_le (by rw [hlen, Nat.mul_assoc]; omega), List.nil_append, Nat.mul_assoc, Nat.add_sub_cancel_left,
      List.drop_append_of_le_length (by rw [hs]; omega), List.take_append_of_le_length (by rw [List.length_drop, hs, h2]; omega)]

/-- Exactly the four byte types are gathered correctly. -/
theorem C124_gather_iff (t : MPIType) :
    (∀ (count : Nat) (send recv : List Nat), 0 < count → BufferFor t count send → BufferFor t count recv →
      ∃ out, serialGather (.bytes send) count recv count 0 = .ok (out, mpiSuccess) ∧ Gathered t count [send] out) ↔ extent t = 4 := by
  constructor
  · intro h
    by_contra hne
    have key := h 1 (List.replicate (extent t) 1) (List.replicate (extent t) 0) Nat.one_pos (by simp [BufferFor]) (by simp [BufferFor])
    obtain ⟨out, h1, h2⟩ := key
    rw [gatherOne _ _ Nat.one_pos] at h1
    have hG := h2 0 (by simp) 0 Nat.one_pos
    cases t <;> first
      | exact hne rfl
      | (simp [memcpyTo, extent, mpiEnumSize, Outcome.bind] at h1; done)
      | (simp [memcpyTo, extent, mpiEnumSize, Outcome.bind] at h1
         subst h1
         simp [mpiElement, extent, typeBytes, List.replicate] at hG)
  · intro ht count send recv hc hs hr
    obtain ⟨out, h1, _, _, _, h5⟩ := C124_gather_partial ht (displ := 0) hc (send := send) (recv := recv) (by rw [hs]) (by rw [hr, Nat.zero_add])
    refine ⟨out, ?_, by simpa using h5⟩
    unfold serialGatherv at h1
    simp only [Nat.zero_mul, List.drop_zero, List.take_zero, List.nil_append, Nat.not_lt_zero, if_false] at h1
    revert h1
    cases serialGather (.bytes send) count recv count 0 <;> simp [Outcome.bind]

/-- What there is beside data: one process of rank 0, at the origin of every grid; the grid has one process in every dimension; broadcasting from the only
process changes nothing, and from another is an error. -/
theorem C124_topology (c : MPIComm) (n : Nat) (coords : List Int) (color key : Int) (buf : List Nat) (root : Int) :
    serialCommSize c = 1 ∧ serialCommRank c = 0 ∧ serialCommDup c = c ∧ serialCommSplit c color key = c ∧ serialCommFree c = .null ∧
      serialCartCoords n = List.replicate n 0 ∧ serialCartRank coords = 0 ∧ (serialDimsCreate n).prod = serialCommSize c ∧ (serialDimsCreate n).length = n ∧
      (serialBcast buf root).1 = buf ∧ ((serialBcast buf 0).2 = mpiSuccess) ∧ (0 < root → (serialBcast buf root).2 ≠ mpiSuccess) ∧
      (serialIbcast buf 0) = (buf, .completed, mpiSuccess) := by
  refine ⟨rfl, rfl, rfl, rfl, rfl, rfl, rfl, ?_, ?_, rfl, rfl, ?_, by simp [serialIbcast]⟩
  · simp [serialDimsCreate, serialCommSize]
  · simp [serialDimsCreate]
  · intro h
    unfold serialBcast
    simp only
    rw [if_pos h]; decide

/-- A sequence of operations on a request: return values. -/
def requestRun : MPIRequest → List MPIRequestOp → MPIRequest × List (Nat × Bool)
  | r, [] => (r, [])
  | r, o :: os => let s := serialRequestOp r o; let t := requestRun s.1 os; (t.1, (s.2.1, s.2.2) :: t.2)

/-- A request of a non-blocking operation is completed and released by the first use; testing and waiting then still succeed, releasing it again fails. -/
theorem C124_requests (o : MPIRequestOp) (os : List MPIRequestOp) :
    requestRun serialIbarrier.1 (o :: os) =
      (.null, (mpiSuccess, true) :: os.map fun q => (if q = .free then mpiErrRequest else mpiSuccess, true)) := by
  have key : ∀ os : List MPIRequestOp, requestRun .null os = (.null, os.map fun q => (if q = .free then mpiErrRequest else mpiSuccess, true)) := by
    intro os
    induction os with
    | nil => rfl
    | cons q os ih => cases q <;> simp [requestRun, serialRequestOp, ih]
  have h1 : serialRequestOp serialIbarrier.1 o = (.null, mpiSuccess, true) := by cases o <;> rfl
  unfold requestRun
  rw [h1]
  simp only [key]

/-- Tuning with one rank: the globally best configuration is the own one, whatever was in memory, and the final broadcast comes from it. -/
theorem C124_findGloballyBest {c : Configuration Nat} (hc : Representable c) (time : Nat) {garbage padding : List Nat} (hg : garbage.length = 16)
    (hp : padding.length = 4) : serialFindBest garbage padding c time = .ok (c, mpiSuccess) := by
  have hb : (bytesOf time).length = 8 := by simp [bytesOf]
  have hi : (intBytes 0).length = 4 := by simp [intBytes]
  unfold serialFindBest
  obtain ⟨out, -, h2, -, -, h5, -⟩ := C124_reduce_partial (fun a _ => a) (t := .longInt) (count := 1) (Or.inr le_rfl)
    (send := bytesOf time ++ intBytes (serialCommRank .world) ++ padding) (recv := garbage) (by
      rw [List.length_append, List.length_append, hb, hp]; simp [intBytes, extent]) (by rw [hg]; decide)
  simp only
  rw [h2]
  have h6 := h5 0 Nat.one_pos
  have h7 : (out.drop 8).take 4 = intBytes 0 := by
    have h8 : (out.take 12).drop 8 = (out.drop 8).take 4 := by rw [List.drop_take]
    have h9 : out.take 12 = (bytesOf time ++ intBytes 0 ++ padding).take 12 := by
      simpa [mpiElement, extent, typeBytes, reducedElement, serialCommRank] using h6
    rw [← h8, h9, List.take_append_of_le_length (by rw [List.length_append, hb, hi]), List.take_of_length_le (by rw [List.length_append, hb, hi]),
      List.drop_append_of_le_length (by rw [hb]), List.drop_eq_nil_of_le (by rw [hb]), List.nil_append]
  simp only [Outcome.bind, serialBcast]
  rw [h7, deserialize_serialize hc]
  rfl

/-! ### Where it fails -/

/-- A `double` that is gathered arrives by halves: the lower four bytes are new, the others those of the receive buffer. -/
theorem C124_violated_gather_double (send recv : List Nat) (hs : BufferFor .double 1 send) (hr : BufferFor .double 1 recv) :
    serialAllgather (.bytes send) 1 recv 1 = .ok (send.take 4 ++ recv.drop 4, mpiSuccess) := by
  unfold BufferFor at hs hr
  simp only [extent] at hs hr
  unfold serialAllgather
  rw [gatherOne _ _ Nat.one_pos, memcpyTo_ok (by rw [hs]; decide) (by rw [hr]; decide)]
  simp [Outcome.bind, mpiEnumSize]

/-- The metric 1.0 of a rank that is gathered into a zero initialised vector gives 0. -/
example : serialAllgather (.bytes (bytesOf 0x3ff0000000000000)) 1 (bytesOf 0) 1 = .ok (bytesOf 0, mpiSuccess) := by decide

/-- Gathering bytes reads and writes four times too much. -/
theorem C124_violated_gather_bytes {t : MPIType} (ht : extent t = 1) {count : Nat} (hc : 0 < count) {send recv : List Nat} (hs : BufferFor t count send)
    : serialGather (.bytes send) count recv count 0 = .ub := by
  unfold BufferFor at hs
  rw [gatherOne _ _ hc, memcpyTo_ub (by left; rw [hs, ht]; unfold mpiEnumSize; omega)]
  rfl

/-- Gathering nothing divides by zero. -/
theorem C124_violated_gather_nothing (send recv : List Nat) (countRecv : Nat) : serialGather (.bytes send) 0 recv countRecv 0 = .ub := rfl

/-- `gatherConfigurations` is undefined behaviour for every list of configurations. -/
theorem C124_violated_gatherConfigurations (cs : List (Configuration Nat)) (hsmall : 14 * cs.length < 2 ^ 31) : serialGatherConfigurations cs = .ub := by
  unfold serialGatherConfigurations
  have hl := (C41_bytes cs).1
  have h1 : serialGather (.bytes (intBytes (serializeConfigurations cs).length)) 1 (intBytes 0) 1 0 =
      .ok (intBytes (serializeConfigurations cs).length, mpiSuccess) := by
    rw [gatherOne _ _ Nat.one_pos, memcpyTo_ok (by simp [intBytes, mpiEnumSize]) (by simp [intBytes, mpiEnumSize])]
    simp [Outcome.bind, mpiEnumSize, intBytes, List.range, List.range.loop]
  simp only
  rw [h1]
  simp only [Outcome.bind]
  have h2 : ofBytes (intBytes (serializeConfigurations cs).length) = (serializeConfigurations cs).length := by
    rw [hl]
    generalize 14 * cs.length = n at *
    simp only [intBytes, List.range, List.range.loop, List.map_cons, List.map_nil, ofBytes]
    omega
  rw [h2]
  have h3 : serialGatherv (.bytes (serializeConfigurations cs)) (serializeConfigurations cs).length (List.replicate (serializeConfigurations cs).length 0)
      (serializeConfigurations cs).length 0 .byte 0 = .ub := by
    unfold serialGatherv
    simp only [Nat.zero_mul, Nat.not_lt_zero, if_false, List.drop_zero, List.take_zero]
    by_cases h0 : (serializeConfigurations cs).length = 0
    · rw [h0, C124_violated_gather_nothing]; rfl
    · rw [C124_violated_gather_bytes (t := .byte) rfl (by omega) (by unfold BufferFor; simp [extent])]; rfl
  rw [h3]

/-- Two pairs of a `long` and an `int`: the second `int` does not arrive. -/
theorem C124_violated_minloc : ∃ send recv out, BufferFor .longInt 2 send ∧ BufferFor .longInt 2 recv ∧
    serialReduce (.bytes send) recv 2 .longInt = .ok (out, mpiSuccess) ∧ mpiElement .longInt out 1 ≠ mpiElement .longInt send 1 :=
  ⟨List.replicate 32 1, List.replicate 32 0, List.replicate 24 1 ++ List.replicate 8 0, by simp [BufferFor, extent], by simp [BufferFor, extent], by decide, by decide⟩

/-- A message to oneself is accepted, and never received; receiving it in the background pretends to succeed. -/
theorem C124_violated_self_message (msg buf : List Nat) (r : MPIRequest) : serialSend msg 0 = mpiSuccess ∧ (serialRecv buf 0).2 ≠ mpiSuccess ∧
    (serialRecv buf 0).1 = buf ∧ (serialIrecv buf 0 r).2.2 = mpiSuccess ∧ (serialIrecv buf 0 r).1 = buf := ⟨rfl, fun h => absurd h (by decide : mpiErrRank ≠ mpiSuccess), rfl, rfl, rfl⟩

/-- `Cart_get` does not tell the grid that was created. -/
theorem C124_violated_cart_get : ∃ dims periods coords : List Int, dims.length = 3 ∧ (serialCartGet dims periods coords).1 ≠ serialDimsCreate 3 :=
  ⟨[7, 7, 7], [0, 0, 0], [9, 9, 9], rfl, by decide⟩

/-! ### Examples -/

example : serialGather (.bytes [1, 2, 3, 4]) 1 [0, 0, 0, 0, 0, 0, 0, 0] 2 0 = .ok ([1, 2, 3, 4, 1, 2, 3, 4], 0) := by decide

example : (serialReduce (.bytes [1, 2, 3, 4, 5, 6, 7, 8]) [0, 0, 0, 0, 0, 0, 0, 0, 9] 2 .int) = .ok ([1, 2, 3, 4, 5, 6, 7, 8, 9], 0) := by decide
example : (serialGatherv (.bytes [1, 2, 3, 4]) 1 (List.replicate 12 0) 1 1 .int 0) = .ok ([0, 0, 0, 0, 1, 2, 3, 4, 0, 0, 0, 0], 0) := by decide
example : ∃ out, serialReduce (.bytes (bytesOf 5)) (bytesOf 0) 1 .double = .ok (out, 0) ∧ mpiElement .double out 0 = bytesOf 5 := by
  obtain ⟨out, h1, _, _, _, h5, _⟩ := C124_reduce_partial (fun a b => a ++ b) (t := .double) (count := 1) (Or.inr le_rfl) (send := bytesOf 5) (recv := bytesOf 0) (by decide) (by decide)
  exact ⟨out, h1, (h5 0 Nat.one_pos).trans (by decide)⟩
example : serialFindBest (List.replicate 16 77) (List.replicate 4 3) ⟨1, 6, 0, 0, 1, 0x3ff0000000000000, 1⟩ 12345 = .ok (⟨1, 6, 0, 0, 1, 0x3ff0000000000000, 1⟩, 0) :=
  C124_findGloballyBest ⟨by norm_num, by norm_num, by norm_num, by norm_num, by norm_num, by norm_num, by norm_num⟩ _ rfl rfl
example : (requestRun .completed [.test, .free, .wait]).2 = [(0, true), (19, true), (0, true)] := rfl

end Verif
