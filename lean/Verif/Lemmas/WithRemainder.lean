import Verif.Model.LCInteract
import Verif.Spec.Forces
import Verif.Props.C20
/-! A container traversal followed by the remainder traversal. -/
namespace Verif
open Spec

section
variable {P : Type} [DecidableEq P]

theorem timesReceived_append' (l₁ l₂ : List (PairCall P)) (a b : P) :
    timesReceived (l₁ ++ l₂) a b = timesReceived l₁ a b + timesReceived l₂ a b := by
  unfold timesReceived
  rw [contributions_append, List.count_append]

theorem mem_contributions {calls : List (PairCall P)} {a b : P} : timesReceived calls a b ≠ 0 ↔ (a, b) ∈ contributions calls := by
  unfold timesReceived
  rw [Nat.ne_zero_iff_zero_lt, List.count_pos_iff]

theorem mem_contributions_calls {calls : List (PairCall P)} {a b : P} (h : timesReceived calls a b ≠ 0) :
    ∃ c ∈ calls, (a = c.p ∧ b = c.q) ∨ (c.newton3 = true ∧ a = c.q ∧ b = c.p) := by
  have hm := mem_contributions.1 h
  unfold contributions at hm
  obtain ⟨call, hcall, hm⟩ := List.mem_flatMap.1 hm
  refine ⟨call, hcall, ?_⟩
  rcases List.mem_cons.1 hm with hm | hm
  · cases hm; exact .inl ⟨rfl, rfl⟩
  · split at hm
    · rename_i hn
      rw [List.mem_singleton] at hm
      cases hm; exact .inr ⟨hn, rfl, rfl⟩
    · cases hm

/-- A list of functor calls that is complete for the particles `all`: owned particles receive the contribution of every other particle
(owned or halo) closer than the cutoff exactly once; nothing is received twice; only these particles take part. -/
structure CompleteCalls (pos : P → V3 Rat) (own : P → Ownership) (cutoff : Rat) (all : List P) (calls : List (PairCall P)) : Prop where
  once : ∀ a ∈ all, ∀ b ∈ all, a ≠ b → own a = .owned → own b ≠ .dummy → distSq (pos a) (pos b) < cutoff * cutoff →
    timesReceived calls a b = 1
  most : ∀ a b, timesReceived calls a b ≤ 1
  mem : ∀ a b, timesReceived calls a b ≠ 0 → a ∈ all ∧ b ∈ all ∧ a ≠ b

variable {pos : P → V3 Rat} {own : P → Ownership} {cutoff : Rat}

/-- Nothing twice, nothing foreign. -/
structure NoDoubleCalls (all : List P) (calls : List (PairCall P)) : Prop where
  most : ∀ a b, timesReceived calls a b ≤ 1
  mem : ∀ a b, timesReceived calls a b ≠ 0 → a ∈ all ∧ b ∈ all ∧ a ≠ b

theorem NoDoubleCalls.with_remainder {cont : List P} {pb hb : List (List P)} {calls : List (PairCall P)}
    (H : NoDoubleCalls cont calls) (hin : RemInput cont pb hb) (pos : P → V3 Rat) (own : P → Ownership) (cutoff : Rat) (newton3 : Bool) :
    NoDoubleCalls (cont ++ (pb.flatten ++ hb.flatten)) (calls ++ remainder2B pos own newton3 cutoff cont pb hb) := by
  have hrem : ∀ a b, timesReceived (remainder2B pos own newton3 cutoff cont pb hb) a b ≠ 0 →
      ¬ (a ∈ cont ∧ b ∈ cont) ∧ a ∈ cont ++ (pb.flatten ++ hb.flatten) ∧ b ∈ cont ++ (pb.flatten ++ hb.flatten) ∧ a ≠ b := by
    intro a b hx
    have hno : ¬ ((a ∈ cont ∧ b ∈ cont) ∨ a = b) := fun hy => hx (C20_container_pairs_untouched hin a b hy)
    have hm := mem_contributions.1 hx
    have hs1 : ∀ b p, ∀ x ∈ regionAround pos own cutoff cont b p, x ∈ cont ++ (pb.flatten ++ hb.flatten) := fun b p x hx =>
      List.mem_append.2 (.inl (List.filter_sublist.subset hx))
    have hs2 : ∀ x ∈ pb.flatten, x ∈ cont ++ (pb.flatten ++ hb.flatten) := fun x hx => List.mem_append.2 (.inr (List.mem_append.2 (.inl hx)))
    have hs3 : ∀ x ∈ hb.flatten, x ∈ cont ++ (pb.flatten ++ hb.flatten) := fun x hx => List.mem_append.2 (.inr (List.mem_append.2 (.inr hx)))
    refine ⟨fun hy => hno (.inl hy), ?_⟩
    have hne : a ≠ b := fun hy => hno (.inr hy)
    rcases ((remainder2B_spec hin).2 a b).1 hm with h1 | h1 | h1 | h1 | h1 | h1
    · exact ⟨hs2 _ h1.1, hs1 _ _ _ h1.2, hne⟩
    · exact ⟨hs1 _ _ _ h1.2.1, hs2 _ h1.1, hne⟩
    · exact ⟨hs1 _ _ _ h1.2, hs3 _ h1.1, hne⟩
    · exact ⟨hs3 _ h1.2.1, hs1 _ _ _ h1.2.2, hne⟩
    · exact ⟨hs2 _ h1.1, hs2 _ h1.2.1, hne⟩
    · exact ⟨hs2 _ h1.1, hs3 _ h1.2, hne⟩
  refine ⟨?_, ?_⟩
  · intro a b
    rw [timesReceived_append']
    have h1 := H.most a b
    have h2 := C20_no_contribution_twice (pos := pos) (own := own) (newton3 := newton3) (cutoff := cutoff) hin a b
    by_contra hx
    have g1 := H.mem a b (by omega)
    exact (hrem a b (by omega)).1 ⟨g1.1, g1.2.1⟩
  · intro a b hx
    rw [timesReceived_append'] at hx
    by_cases hy : timesReceived calls a b = 0
    · exact (hrem a b (by omega)).2
    · obtain ⟨g1, g2, g3⟩ := H.mem a b hy
      exact ⟨List.mem_append.2 (.inl g1), List.mem_append.2 (.inl g2), g3⟩

/-- The remainder traversal completes a container traversal. -/
theorem CompleteCalls.with_remainder {cont : List P} {pb hb : List (List P)} {calls : List (PairCall P)}
    (H : CompleteCalls pos own cutoff cont calls) (hc : 0 ≤ cutoff) (hin : RemInput cont pb hb) (hh : ∀ x ∈ hb.flatten, own x = .halo)
    (newton3 : Bool) :
    CompleteCalls pos own cutoff (cont ++ (pb.flatten ++ hb.flatten)) (calls ++ remainder2B pos own newton3 cutoff cont pb hb) := by
  have hnd := hin.nodup
  rw [List.nodup_append, List.nodup_append] at hnd
  obtain ⟨nc, ⟨np, nh, dph⟩, dc⟩ := hnd
  have hno := NoDoubleCalls.with_remainder ⟨H.most, H.mem⟩ hin pos own cutoff newton3
  refine ⟨?_, hno.most, hno.mem⟩
  · intro a ha b hb' hab hao hbo hd
    rw [timesReceived_append']
    rcases List.mem_append.1 ha with ha | ha
    · rcases List.mem_append.1 hb' with hb' | hb'
      · rw [C20_container_pairs_untouched hin a b (.inl ⟨ha, hb'⟩), Nat.add_zero]
        exact H.once a ha b hb' hab hao hbo hd
      · rw [C20_container_particle_receives_each_once hin hc a b ha hao (List.mem_append.1 hb') (by
          rw [show distSq (pos b) (pos a) = distSq (pos a) (pos b) by simp only [distSq]; ring]; exact hd)]
        by_contra hx
        exact dc b (H.mem a b (by omega)).2.1 b hb' rfl
    · rcases List.mem_append.1 ha with ha | ha
      · rw [C20_buffered_particle_receives_each_once hin hc a b ha (Ne.symm hab) ?_]
        · by_contra hx
          exact dc a (H.mem a b (by omega)).1 a (List.mem_append.2 (.inl ha)) rfl
        · rcases List.mem_append.1 hb' with hb' | hb'
          · exact .inr (.inr ⟨hb', hbo, hd⟩)
          · rcases List.mem_append.1 hb' with hb' | hb'
            · exact .inl hb'
            · exact .inr (.inl hb')
      · rw [hh a ha] at hao; cases hao

/-- A sum over received contributions, if every contribution that matters is received exactly once and no other particle
contributes. -/
theorem accumulated_eq {M : Type} [AddCommMonoid M] {F : P → P → M} {calls : List (PairCall P)} {a : P} {all : List P}
    (hall : all.Nodup) (hmost : ∀ b, timesReceived calls a b ≤ 1)
    (hmem : ∀ b, timesReceived calls a b ≠ 0 → b ∈ all ∧ b ≠ a)
    (honce : ∀ b ∈ all, b ≠ a → F a b ≠ 0 → timesReceived calls a b = 1) :
    accumulated F calls a = ((all.filter fun b => b ≠ a).map (F a)).sum := by
  classical
  unfold accumulated
  set L := ((contributions calls).filter fun t => t.1 = a).map Prod.snd with hL
  have e : ((contributions calls).filter fun t => t.1 = a).map (fun t => F a t.2) = L.map (F a) := by
    rw [hL, List.map_map]; rfl
  rw [e]
  have hc : ∀ b, L.count b = timesReceived calls a b := by
    intro b
    unfold timesReceived
    rw [hL, List.count_eq_countP, List.countP_map, List.countP_filter, List.count_eq_countP]
    apply List.countP_congr
    rintro ⟨x, y⟩ _
    simp only [Function.comp, Bool.and_eq_true, beq_iff_eq, decide_eq_true_eq, Prod.mk.injEq]
    exact and_comm
  have hLn : L.Nodup := List.nodup_iff_count_le_one.2 fun b => by rw [hc]; exact hmost b
  have hz : ∀ l : List P, (l.map (F a)).sum = ((l.filter fun b => F a b ≠ 0).map (F a)).sum := by
    intro l
    induction l with
    | nil => rfl
    | cons x l ih =>
      by_cases hx : F a x = 0
      · rw [List.filter_cons_of_neg (by simp [hx]), List.map_cons, List.sum_cons, hx, zero_add, ih]
      · rw [List.filter_cons_of_pos (by simp [hx]), List.map_cons, List.map_cons, List.sum_cons, List.sum_cons, ih]
  rw [hz L, hz (all.filter fun b => b ≠ a)]
  refine (List.Perm.map (F a) ?_).sum_eq
  rw [List.perm_ext_iff_of_nodup (hLn.filter _) ((hall.filter _).filter _)]
  intro b
  have hm : b ∈ L ↔ timesReceived calls a b ≠ 0 := by rw [← hc, ← List.count_pos_iff, Nat.pos_iff_ne_zero]
  simp only [List.mem_filter, decide_eq_true_eq]
  constructor
  · rintro ⟨h1, h2⟩
    exact ⟨hmem b (hm.1 h1), h2⟩
  · rintro ⟨⟨h1, h2⟩, h3⟩
    exact ⟨hm.2 (by rw [honce b h1 h2 h3]; decide), h3⟩

/-- Complete calls accumulate the sum over all other particles. -/
theorem CompleteCalls.accumulated {M : Type} [AddCommMonoid M] {all : List P} {calls : List (PairCall P)}
    (H : CompleteCalls pos own cutoff all calls) (hall : all.Nodup) (F : P → P → M)
    (hz : ∀ a b, (own b = .dummy ∨ cutoff * cutoff ≤ distSq (pos a) (pos b)) → F a b = 0) (a : P) (ha : a ∈ all) (hao : own a = .owned) :
    accumulated F calls a = ((all.filter fun b => b ≠ a).map (F a)).sum := by
  refine accumulated_eq hall (H.most a) (fun b hb => ⟨(H.mem a b hb).2.1, (H.mem a b hb).2.2.symm⟩) ?_
  intro b hb hne hF
  refine H.once a ha b hb hne.symm hao (fun hx => hF (hz a b (.inl hx))) ?_
  by_contra hx
  exact hF (hz a b (.inr (le_of_not_gt hx)))

end
end Verif
