import Verif.Lemmas.LJTraversal
import Verif.Lemmas.WholeInteractions
import Verif.Props.C28
/-! A complete list of calls makes the Lennard-Jones functor compute the sums over all pairs. -/
namespace Verif
open Spec

section
variable {P : Type} [DecidableEq P] {pos : P → V3 Rat} {own : P → Ownership} {cutoff : Rat} {all : List P} {calls : List (PairCall P)}

/-- As `CompleteCalls.accumulated`; only stored particles matter. -/
theorem CompleteCalls.sum_at {M : Type} [AddCommMonoid M] (H : CompleteCalls pos own cutoff all calls) (hall : all.Nodup) (F : P → P → M)
    (hz : ∀ a ∈ all, ∀ b ∈ all, a ≠ b → (own b = .dummy ∨ cutoff * cutoff ≤ distSq (pos a) (pos b)) → F a b = 0) (a : P) (ha : a ∈ all)
    (hao : own a = .owned) :
    (((contributions calls).filter fun t => t.1 = a).map fun t => F a t.2).sum = ((all.filter fun b => b ≠ a).map (F a)).sum := by
  refine accumulated_eq hall (H.most a) (fun b hb => ⟨(H.mem a b hb).2.1, (H.mem a b hb).2.2.symm⟩) ?_
  intro b hb hne hF
  refine H.once a ha b hb hne.symm hao (fun hx => hF (hz a ha b hb hne.symm (.inl hx))) ?_
  by_contra hx
  exact hF (hz a ha b hb hne.symm (.inr (le_of_not_gt hx)))

private theorem sum_by_first {M : Type} [AddCommMonoid M] (g : P × P → M) (es : List (P × P)) :
    ∀ l : List P, l.Nodup → (l.map fun a => ((es.filter fun e => e.1 = a).map g).sum).sum = ((es.filter fun e => e.1 ∈ l).map g).sum := by
  intro l hl
  induction es with
  | nil => simp
  | cons e es ih =>
    by_cases hm : e.1 ∈ l
    · rw [List.filter_cons_of_pos (by simpa using hm), List.map_cons, List.sum_cons, ← ih]
      clear ih
      induction l with
      | nil => cases hm
      | cons a l ih2 =>
        obtain ⟨hal, hl'⟩ := List.nodup_cons.1 hl
        rw [List.map_cons, List.sum_cons, List.map_cons, List.sum_cons]
        by_cases hea : e.1 = a
        · rw [List.filter_cons_of_pos (by simpa using hea), List.map_cons, List.sum_cons, add_assoc]
          congr 2
          refine congrArg List.sum (List.map_congr_left fun b hb => ?_)
          rw [List.filter_cons_of_neg (by simpa using fun h' : e.1 = b => hal (by rw [← hea, h']; exact hb))]
        · rw [List.filter_cons_of_neg (by simpa using hea), ih2 hl' ((List.mem_cons.1 hm).resolve_left hea)]
          rw [← add_assoc, add_comm _ (g e), add_assoc]
    · rw [List.filter_cons_of_neg (by simpa using hm), ← ih]
      refine congrArg List.sum (List.map_congr_left fun b hb => ?_)
      rw [List.filter_cons_of_neg (by simpa using fun h' : e.1 = b => hm (h' ▸ hb))]

/-- The sum over all interactions received by owned particles. -/
theorem CompleteCalls.sum_owned {M : Type} [AddCommMonoid M] (H : CompleteCalls pos own cutoff all calls) (hall : all.Nodup) (F : P → P → M)
    (hz : ∀ a ∈ all, ∀ b ∈ all, a ≠ b → (own b = .dummy ∨ cutoff * cutoff ≤ distSq (pos a) (pos b)) → F a b = 0) :
    (((contributions calls).filter fun t => own t.1 = .owned).map fun t => F t.1 t.2).sum =
      ((all.filter fun a => own a = .owned).map fun a => ((all.filter fun b => b ≠ a).map (F a)).sum).sum := by
  have hnd : (all.filter fun a => decide (own a = .owned)).Nodup := hall.filter _
  have e : ((contributions calls).filter fun t => decide (own t.1 = .owned)) =
      (contributions calls).filter fun t => decide (t.1 ∈ all.filter fun a => decide (own a = .owned)) := by
    refine List.filter_congr ?_
    intro t ht
    have := H.mem t.1 t.2 (mem_contributions.2 ht)
    simp [this.1]
  rw [e, ← sum_by_first (fun t => F t.1 t.2) _ _ hnd]
  refine congrArg List.sum (List.map_congr_left fun a ha => ?_)
  obtain ⟨ha, hao⟩ := List.mem_filter.1 ha
  rw [← H.sum_at hall F hz a ha (by simpa using hao)]
  refine congrArg List.sum (List.map_congr_left fun t ht => ?_)
  have := (List.mem_filter.1 ht).2
  rw [decide_eq_true_eq] at this
  rw [this]

end

/-- What the Lennard-Jones functor reads of a stored particle; the types are given by the IDs. -/
def slotMol (typeOf : Nat → Nat) (x : Slot) : Mol Rat := ⟨x.pos, typeOf x.particle.id, x.own⟩

theorem normSq_distSq (a b : V3 Rat) : normSq (a - b) = distSq a b := rfl

private theorem getD_nodup_of_flatten {P : Type} {ls : List (List P)} (h : ls.flatten.Nodup) (k : Nat) : (ls.getD k []).Nodup := by
  by_cases hk : k < ls.length
  · rw [List.getD_eq_getElem _ _ hk]
    exact (List.nodup_flatten.1 h).1 _ (List.getElem_mem _)
  · rw [List.getD_eq_default _ _ (by omega)]
    exact List.nodup_nil

theorem lcCells_nodup {P : Type} (b : CellBlock) {cells : List (List P)} (h : cells.flatten.Nodup) (i : Int) :
    (cellAt (lcCells b cells) i).particles.Nodup := by
  unfold cellAt lcCells
  by_cases hk : i.toNat < cells.length
  · rw [List.getD_eq_getElem _ _ (by simpa using hk), List.getElem_map]
    exact getD_nodup_of_flatten h _
  · rw [List.getD_eq_default _ _ (by simpa using hk)]
    exact List.nodup_nil

theorem kernels_lists (c : LHParams) (s : LHState) (t : LCTraversal) (f : CellFunctorCfg Slot) : ∀ k ∈ s.kernels c t f, k.Lists := by
  intro k hk
  unfold LHState.kernels at hk
  rcases List.mem_append.1 hk with hk | hk
  · unfold CellFunctorCfg.runKernels at hk
    obtain ⟨op, -, hk⟩ := List.mem_flatMap.1 hk
    have hn := lcCells_nodup c.block (slots_nodup 0 s.cells)
    cases op with
    | self i =>
      change k ∈ f.cellKernels _ at hk
      unfold CellFunctorCfg.cellKernels at hk
      split at hk
      · split at hk
        · cases hk
        · split at hk
          · cases hk
          · rw [List.mem_singleton] at hk; subst hk; exact hn i
      · obtain ⟨x, -, rfl⟩ := List.mem_map.1 hk; trivial
    | pair i j dir =>
      change k ∈ f.cellPairKernels _ _ _ at hk
      unfold CellFunctorCfg.cellPairKernels at hk
      split at hk
      · split at hk
        · cases hk
        · split at hk
          · cases hk
          · rcases List.mem_cons.1 hk with hk | hk
            · subst hk; exact ⟨hn i, hn j⟩
            · split at hk
              · rw [List.mem_singleton] at hk; subst hk; exact ⟨hn j, hn i⟩
              · cases hk
      · obtain ⟨x, -, rfl⟩ := List.mem_map.1 hk; trivial
  · unfold remainder2BKernels at hk
    have np : (balanceVectors (slotsOf 1 s.bufs)).flatten.Nodup := (C28_keeps_elements _).1.nodup_iff.2 (slots_nodup _ _)
    have nh : (balanceVectors (slotsOf 2 s.haloBufs)).flatten.Nodup := (C28_keeps_elements _).1.nodup_iff.2 (slots_nodup _ _)
    rcases List.mem_append.1 hk with hk | hk
    · rcases List.mem_append.1 hk with hk | hk
      · obtain ⟨x, -, rfl⟩ := List.mem_map.1 hk; trivial
      · unfold remBufferBufferKernels at hk
        obtain ⟨i, -, hk⟩ := List.mem_flatMap.1 hk
        obtain ⟨jj, -, hk⟩ := List.mem_map.1 hk
        simp only at hk
        split at hk
        · subst hk; exact getD_nodup_of_flatten np _
        · subst hk; exact ⟨getD_nodup_of_flatten np _, getD_nodup_of_flatten np _⟩
    · unfold remBufferHaloBufferKernels at hk
      obtain ⟨off, -, hk⟩ := List.mem_flatMap.1 hk
      obtain ⟨i, -, hk⟩ := List.mem_map.1 hk
      subst hk
      exact ⟨getD_nodup_of_flatten np _, getD_nodup_of_flatten nh _⟩

end Verif
