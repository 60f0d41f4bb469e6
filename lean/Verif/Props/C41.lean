import Verif.Model.MPITuning
import Mathlib.Tactic.Linarith
/-!
# C41 — configuration serialization round-trips
-/
namespace Verif

/-- Values that can occur: enumerators fit into a byte, the cell size factor is a 64 bit pattern. -/
structure Spec.Representable (c : Configuration Nat) : Prop where
  container : c.container < 256
  traversal : c.traversal < 256
  loadEstimator : c.loadEstimator < 256
  dataLayout : c.dataLayout < 256
  newton3 : c.newton3 < 256
  interactionType : c.interactionType < 256
  cellSizeFactor : c.cellSizeFactor < 2 ^ 64

open Spec

theorem ofBytes_bytesOf {n : Nat} (h : n < 2 ^ 64) : ofBytes (bytesOf n) = n := by
  show ofBytes [n / 256 ^ 0 % 256, n / 256 ^ 1 % 256, n / 256 ^ 2 % 256, n / 256 ^ 3 % 256, n / 256 ^ 4 % 256, n / 256 ^ 5 % 256,
    n / 256 ^ 6 % 256, n / 256 ^ 7 % 256] = n
  simp only [ofBytes]
  norm_num
  omega

theorem serialize_length (c : Configuration Nat) : (serializeConfiguration c).length = 14 := rfl

theorem deserialize_serialize {c : Configuration Nat} (h : Representable c) : deserializeConfiguration (serializeConfiguration c) = c := by
  obtain ⟨h1, h2, h3, h4, h5, h6, h7⟩ := h
  have e : (serializeConfiguration c).drop 6 = bytesOf c.cellSizeFactor := rfl
  unfold deserializeConfiguration
  rw [e, ofBytes_bytesOf h7]
  simp only [serializeConfiguration, List.cons_append, List.getD_cons_zero, List.getD_cons_succ, Nat.mod_eq_of_lt h1, Nat.mod_eq_of_lt h2,
    Nat.mod_eq_of_lt h3, Nat.mod_eq_of_lt h4, Nat.mod_eq_of_lt h5, Nat.mod_eq_of_lt h6]

/-- C41. Serializing any list of configurations to bytes and reading them back yields the same list. -/
theorem C41_roundtrip (cs : List (Configuration Nat)) (h : ∀ c ∈ cs, Representable c) :
    deserializeConfigurations (serializeConfigurations cs) = .ok cs := by
  induction cs with
  | nil => unfold serializeConfigurations deserializeConfigurations; rfl
  | cons c cs ih =>
    have e : serializeConfigurations (c :: cs) = serializeConfiguration c ++ serializeConfigurations cs := rfl
    have hl := serialize_length c
    rw [deserializeConfigurations, dif_neg (by rw [e]; intro hx; have := congrArg List.length hx; simp [hl] at this),
      if_neg (by rw [e, List.length_append, hl]; omega), e, ← hl, List.drop_left, List.take_left,
      ih fun x hx => h x (List.mem_cons_of_mem _ hx)]
    show Outcome.ok _ = _
    rw [deserialize_serialize (h c (List.mem_cons_self ..))]

/-- Every byte is a byte. -/
theorem C41_bytes (cs : List (Configuration Nat)) : (serializeConfigurations cs).length = 14 * cs.length ∧ ∀ b ∈ serializeConfigurations cs, b < 256 := by
  constructor
  · unfold serializeConfigurations
    rw [List.length_flatMap]
    simp only [serialize_length, List.map_const', List.sum_replicate_nat, Nat.mul_comm]
  · intro b hb
    obtain ⟨c, -, hb⟩ := List.mem_flatMap.1 hb
    unfold serializeConfiguration bytesOf at hb
    simp only [List.mem_append, List.mem_cons, List.not_mem_nil, or_false, List.mem_map] at hb
    rcases hb with (h | h | h | h | h | h) | ⟨i, -, h⟩ <;> (first | rw [h] | rw [← h]) <;> exact Nat.mod_lt _ (by norm_num)

/-- Gathering the lists of all ranks yields all configurations, in the order of ranks. -/
theorem C41_gather (perRank : List (List (Configuration Nat))) (h : ∀ cs ∈ perRank, ∀ c ∈ cs, Representable c) :
    gatherConfigurations perRank = .ok perRank.flatten := by
  unfold gatherConfigurations
  have e : perRank.flatMap serializeConfigurations = serializeConfigurations perRank.flatten := by
    unfold serializeConfigurations
    clear h
    induction perRank with
    | nil => rfl
    | cons x xs ih => rw [List.flatMap_cons, List.flatten_cons, List.flatMap_append, ih]
  rw [e]
  apply C41_roundtrip
  intro c hc
  obtain ⟨cs, h1, h2⟩ := List.mem_flatten.1 hc
  exact h cs h1 c h2

/-- Two configurations (lc_c08 and lc_sliced of LinkedCells, cell size factor 1.0) meet the hypotheses; the list is 28 bytes long. -/
example : (∀ c ∈ [(⟨1, 6, 0, 0, 1, 0x3ff0000000000000, 1⟩ : Configuration Nat), ⟨1, 8, 0, 1, 0, 0x3ff0000000000000, 1⟩], Representable c) ∧
    (serializeConfigurations [⟨1, 6, 0, 0, 1, 0x3ff0000000000000, 1⟩, ⟨1, 8, 0, 1, 0, 0x3ff0000000000000, 1⟩]).length = 28 := by
  refine ⟨?_, rfl⟩
  intro c hc
  simp only [List.mem_cons, List.not_mem_nil, or_false] at hc
  rcases hc with rfl | rfl <;> refine ⟨?_, ?_, ?_, ?_, ?_, ?_, ?_⟩ <;> norm_num

/-- A truncated message is undefined behaviour. -/
example : deserializeConfigurations [1, 2, 3] = .ub := by
  rw [deserializeConfigurations, dif_neg (by decide), if_pos (by decide)]

end Verif
