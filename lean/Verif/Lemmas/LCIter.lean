import Verif.Lemmas.IterTotal
import Verif.Spec.Iteration
import Verif.Props.C35
/-! Iteration over a linked-cells container. -/
namespace Verif
open Spec

theorem and_bit_ne_zero (behavior k : Nat) : (behavior &&& 2 ^ k ≠ 0) ↔ behavior.testBit k = true := by
  rw [Nat.and_two_pow]
  cases behavior.testBit k <;> simp

theorem fulfills_wanted (behavior : Nat) (s : Ownership) : fulfillsOwnership behavior s = wanted behavior s := by
  have h := C35_iterators_select_named_states behavior s
  rw [Bool.eq_iff_iff, h]
  cases s <;> rfl

theorem owned_bit (behavior : Nat) : decide (behavior &&& ibOwned ≠ 0) = behavior.testBit 0 := by
  have := and_bit_ne_zero behavior 0
  rw [Bool.eq_iff_iff, decide_eq_true_eq]; exact this

theorem halo_bit (behavior : Nat) : decide (behavior &&& ibHalo ≠ 0) = behavior.testBit 1 := by
  have := and_bit_ne_zero behavior 1
  rw [Bool.eq_iff_iff, decide_eq_true_eq]; exact this

theorem seq_bit (behavior : Nat) : (behavior &&& ibForceSequential ≠ 0) ↔ behavior.testBit 3 = true :=
  and_bit_ne_zero behavior 3

/-- A cell that does not match the behaviour holds no wanted particle. -/
theorem not_wanted_of_mismatch {b : CellBlock} {behavior : Nat} {cells vecs : List (List Particle)} (hs : LCStorage b cells vecs)
    (hb : NoDummyOrAll behavior) {c : Nat} (h : cellMatchesBehavior b behavior c = false) {p : Particle}
    (hp : p ∈ cells.getD c []) : wanted behavior p.own = false := by
  unfold cellMatchesBehavior at h
  rw [owned_bit, halo_bit] at h
  have h1 := hs.ownedIn c p hp
  have h2 := hs.haloIn c p hp
  cases ho : p.own with
  | owned =>
    have := h1 ho
    rw [this] at h
    simp only [wanted]
    cases hx : behavior.testBit 0 <;> simp_all
  | halo =>
    have := h2 ho
    rw [this] at h
    simp only [wanted]
    cases hx : behavior.testBit 1 <;> simp_all
  | dummy =>
    simp only [wanted]
    cases hx : behavior.testBit 2 with
    | false => rfl
    | true =>
      obtain ⟨b0, b1⟩ := hb hx
      rw [b0, b1] at h
      cases hc : b.cellCanContainHalo c <;> simp_all

theorem lc_goodStorage {b : CellBlock} {behavior : Nat} {cells vecs : List (List Particle)} (hs : LCStorage b cells vecs)
    (hb : NoDummyOrAll behavior) (T t : Nat) (hT : 0 < T) : GoodStorage (lcIterCfg b behavior T t) cells vecs := by
  refine ⟨?_, ?_, hs.small, hs.vsmall, hs.vnum⟩
  · show 0 < iterStride behavior T
    unfold iterStride; split <;> omega
  · intro c hc p hp
    show fulfillsOwnership behavior p.own = false
    rw [fulfills_wanted]
    exact not_wanted_of_mismatch hs hb hc hp

/-- Loops that delete nothing end, and visit each matching particle once. -/
theorem loop_ends_of_no_delete {P : Type} {cfg : IterCfg P} {cells vecs : List (List P)} (hg : GoodStorage cfg cells vecs)
    (body : List P → P → Option P) (hbody : vecs ≠ [] ∨ ∀ seen p, body seen p ≠ none) :
    ∃ vs cells' vecs', LoopEnds cfg body cells vecs vs cells' vecs' ∧
      (vs.map fun v => (v.inVecs, v.idx, v.before)).Perm (allVisits cfg cells vecs) ∧ Follows body [] vs ∧
      cells'.length = cells.length ∧ vecs'.length = vecs.length ∧
      (∀ k, (cells'.getD k [] ++ beforesAt false k vs).Perm (cells.getD k [] ++ aftersAt false k vs)) ∧
      (∀ k, (vecs'.getD k [] ++ beforesAt true k vs).Perm (vecs.getD k [] ++ aftersAt true k vs)) ∧
      (∀ k, (∀ v ∈ vs, ¬ (v.inVecs = false ∧ v.idx = k)) → cells'.getD k [] = cells.getD k []) ∧
      (∀ k, (∀ v ∈ vs, ¬ (v.inVecs = true ∧ v.idx = k)) → vecs'.getD k [] = vecs.getD k []) := by
  obtain ⟨vs, t, a1, a2, a3, a4, -, a6, a7, a8, a9, a10⟩ := begin_pass cfg body [] hg
  rcases a10 with ⟨-, a10⟩ | ⟨b1, ⟨v, b2, b3⟩, -, -⟩
  · refine ⟨vs, t.cells, t.vecs, ⟨vs.length + 1, fun m hm => ⟨t, ?_, rfl, rfl⟩⟩, a1, a2, a3, a4, a6, a7, a8, a9⟩
    have := a10 (m - (vs.length + 1))
    rw [show m - (vs.length + 1) + vs.length + 1 = m by omega] at this
    exact this
  · exfalso
    rcases hbody with h | h
    · exact h b1
    · have fol : ∀ (vs : List (Visit P)) seen, Follows body seen vs → ∀ v ∈ vs, v.after ≠ none := by
        intro vs
        induction vs with
        | nil => intro _ _ v hv; cases hv
        | cons w ws ih =>
          intro seen hf v hv
          rcases List.mem_cons.1 hv with rfl | hv
          · rw [hf.1]; exact h _ _
          · exact ih _ hf.2 v hv
      exact fol vs [] a2 v (List.mem_of_getLast? b2) b3

end Verif
