import Verif.Lemmas.Serialization

/-! C96: particles that travel between ranks arrive unchanged, complete and in order, for single-site and multi-site molecules.
The exception are messages of 2^31 bytes and more, whose length does not fit the `int` it is passed as. -/
namespace Verif
open Ser

/-- Writing any list of single-site molecules into a buffer and reading the buffer back appends exactly these molecules, in the
same order and with every member bit for bit equal, to whatever had been received before. Neither direction leaves its buffer. -/
theorem C96_single_site (ps received : List Mol) :
    ∃ data, serializeAll singleSite ps [] = .ok data ∧ data.length = 120 * ps.length ∧
      deserializeParticles singleSite data received = .ok (received ++ ps) :=
  ⟨_, serializeAll_eq singleSite_complete ps [],
    by rw [List.nil_append, flat_length singleSite_complete]; exact Nat.mul_comm _ _,
    deserializeParticles_eq singleSite_complete ps received⟩

/-- The same for multi-site molecules, including orientation, angular velocity and torque. -/
theorem C96_multi_site (ps received : List MultiMol) :
    ∃ data, serializeAll multiSite ps [] = .ok data ∧ data.length = 200 * ps.length ∧
      deserializeParticles multiSite data received = .ok (received ++ ps) :=
  ⟨_, serializeAll_eq multiSite_complete ps [],
    by rw [List.nil_append, flat_length multiSite_complete]; exact Nat.mul_comm _ _,
    deserializeParticles_eq multiSite_complete ps received⟩

/-- Any sequence of messages between two ranks (single-site): the n-th receive delivers the molecules of the n-th send, appended
to the vector it is given, also when messages are empty, and no message is left over.
Missing for the full statement: messages of 2^31 bytes or more, i.e. of more than 17895697 molecules. -/
theorem C96_messages_partial (messages vectors : List (List Mol)) (hv : vectors.length = messages.length)
    (hsize : ∀ ps ∈ messages, ps.length ≤ 17895697) :
    ∃ ch, sendMany singleSite messages [] = .ok ch ∧
      receiveMany singleSite vectors ch = .ok ([], List.zipWith (· ++ ·) vectors messages) := by
  refine ⟨_, sendMany_small singleSite_complete messages [] fun ps hps => ?_, ?_⟩
  · have h1 := hsize ps hps
    have h2 : singleSite.attributesSize = 120 := rfl
    rw [h2]
    omega
  · have := receiveMany_eq singleSite_complete messages vectors [] hv
    rwa [List.append_nil] at this

/-- The same for multi-site molecules, up to 10737418 molecules per message. -/
theorem C96_messages_multi_site_partial (messages vectors : List (List MultiMol)) (hv : vectors.length = messages.length)
    (hsize : ∀ ps ∈ messages, ps.length ≤ 10737418) :
    ∃ ch, sendMany multiSite messages [] = .ok ch ∧
      receiveMany multiSite vectors ch = .ok ([], List.zipWith (· ++ ·) vectors messages) := by
  refine ⟨_, sendMany_small multiSite_complete messages [] fun ps hps => ?_, ?_⟩
  · have h1 := hsize ps hps
    have h2 : multiSite.attributesSize = 200 := rfl
    rw [h2]
    omega
  · have := receiveMany_eq multiSite_complete messages vectors [] hv
    rwa [List.append_nil] at this

/-- The bound is sharp: one molecule more and the length does not fit an `int`; for every message of between 2^31 and 2^32 bytes
the count passed to MPI is negative and the program is aborted. -/
theorem C96_too_long_aborts (ps : List Mol) (ch : Channel) (h : 17895698 ≤ ps.length) (h' : ps.length ≤ 35791394) :
    sendParticles singleSite ch ps = .throws := by
  have h2 : singleSite.attributesSize = 120 := rfl
  apply sendParticles_negative singleSite_complete
  · rw [h2]; omega
  · rw [h2]; omega

/-- With still one more molecule, the length wraps around: without any error a message of 104 bytes is sent, and the receiver
reads beyond the end of its buffer. -/
theorem C96_too_long_corrupts (ps : List Mol) (h : ps.length = 35791395) :
    ∃ ch, sendParticles singleSite [] ps = .ok ch ∧ ∀ received, receiveParticles singleSite ch received = .ub := by
  have h2 : singleSite.attributesSize = 120 := rfl
  refine ⟨_, sendParticles_wrapped singleSite_complete [] ps 104 (by omega) (by rw [h2, h]), fun received => ?_⟩
  have hl : ((ps.flatMap fun p => payload singleSite p singleSite.attributes).take 104).length = 104 := by
    rw [List.length_take, flat_length singleSite_complete, h2, h]
    omega
  exact receiveParticles_short singleSite_complete _ [] received (by rw [hl]; omega) (by rw [hl, h2]; omega)

/-! The hypotheses are met by concrete cases. -/

/-- A molecule with all members different. -/
def serExample (k : Nat) : Mol :=
  ⟨⟨k, k + 1, k + 2⟩, ⟨k + 3, k + 4, k + 5⟩, ⟨k + 6, k + 7, k + 8⟩, k + 9, 1, k + 10, ⟨k + 11, k + 12, k + 13⟩⟩

example : ∃ ch, sendMany singleSite [[serExample 5, serExample 1000], [], [serExample 70000]] [] = .ok ch ∧
    receiveMany singleSite [[], [serExample 3], [serExample 4]] ch =
      .ok ([], [[serExample 5, serExample 1000], [serExample 3], [serExample 4, serExample 70000]]) :=
  C96_messages_partial _ _ rfl (by simp)

example : (List.replicate 35791395 (serExample 1)).length = 35791395 := List.length_replicate ..

end Verif
