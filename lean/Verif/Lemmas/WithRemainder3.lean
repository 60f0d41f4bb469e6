import Verif.Lemmas.TripleInteract
import Verif.Props.C21
import Verif.Spec.TripleForces
import Mathlib.Data.Sym.Sym2
/-! A container traversal for a three-body functor followed by the remainder traversal. -/
namespace Verif
open Spec

section
variable {P : Type} [DecidableEq P] {pos : P → V3 Rat} {own : P → Ownership} {cutoff : Rat}

/-- A list of three-body functor calls that is complete for the particles `all`: owned particles receive the contribution of every two
other particles (owned or halo) exactly once if the three are pairwise closer than the cutoff; nothing is received twice; only these
particles take part. -/
structure CompleteCalls3 (pos : P → V3 Rat) (own : P → Ownership) (cutoff : Rat) (all : List P) (calls : List (TripleCall P)) : Prop where
  once : ∀ a ∈ all, ∀ b ∈ all, ∀ c ∈ all, a ≠ b → a ≠ c → b ≠ c → own a = .owned → own b ≠ .dummy → own c ≠ .dummy →
    Close pos cutoff a b → Close pos cutoff a c → Close pos cutoff b c → timesReceived3 calls a b c = 1
  most : ∀ a b c, timesReceived3 calls a b c ≤ 1
  mem : ∀ a b c, timesReceived3 calls a b c ≠ 0 → a ∈ all ∧ b ∈ all ∧ c ∈ all ∧ a ≠ b ∧ a ≠ c ∧ b ≠ c

variable {cont : List P} {pb hb : List (List P)} {newton3 : Bool}

omit [DecidableEq P] in
private theorem idx_ne {l : List P} (hnd : l.Nodup) {i j : Nat} {a b : P} (hi : l[i]? = some a) (hj : l[j]? = some b) (hij : i ≠ j) : a ≠ b := by
  rintro rfl
  obtain ⟨h1, h2⟩ := List.getElem?_eq_some_iff.1 hi
  obtain ⟨h3, h4⟩ := List.getElem?_eq_some_iff.1 hj
  exact hij ((List.Nodup.getElem_inj_iff hnd).1 (h2.trans h4.symm))

private theorem noN3_contributions {l : List (TripleCall P)} (h : ∀ t ∈ l, t.newton3 = false) {u : P × P × P} (hu : u ∈ contributions3 l) :
    ∃ t ∈ l, u = (t.p, t.q, t.r) := by
  unfold contributions3 at hu
  obtain ⟨t, ht, hu⟩ := List.mem_flatMap.1 hu
  rw [h t ht] at hu
  simp at hu
  exact ⟨t, ht, hu⟩

/-- Contributions of the remainder traversal: three different stored particles. -/
theorem mem_remainder3 (h : RemInput cont pb hb) {u : P × P × P} (hu : u ∈ contributions3 (remainder3B pos own newton3 cutoff cont pb hb)) :
    (u.1 ∈ cont ++ (pb.flatten ++ hb.flatten) ∧ u.2.1 ∈ cont ++ (pb.flatten ++ hb.flatten) ∧ u.2.2 ∈ cont ++ (pb.flatten ++ hb.flatten)) ∧
      u.1 ≠ u.2.1 ∧ u.1 ≠ u.2.2 ∧ u.2.1 ≠ u.2.2 := by
  obtain ⟨nc, nb, hd⟩ := List.nodup_append.1 h.nodup
  have inB : ∀ {x}, x ∈ pb.flatten ++ hb.flatten → x ∈ cont ++ (pb.flatten ++ hb.flatten) := fun hx => List.mem_append.2 (.inr hx)
  have inC : ∀ {x}, x ∈ cont → x ∈ cont ++ (pb.flatten ++ hb.flatten) := fun hx => List.mem_append.2 (.inl hx)
  unfold remainder3B at hu
  simp only [contributions3, List.flatMap_append, List.mem_append] at hu
  rcases hu with (hu | hu) | hu
  · obtain ⟨t, ht, rfl⟩ := noN3_contributions (fun t ht => (mem_rem3BBB ht).2.2.2) hu
    obtain ⟨m1, m2, m3, -⟩ := mem_rem3BBB ht
    refine ⟨⟨inB m1, inB m2, inB m3⟩, ?_⟩
    rw [rem3BBB_eq] at ht
    obtain ⟨i, _, ht⟩ := List.mem_flatMap.1 ht
    obtain ⟨j, _, ht⟩ := List.mem_flatMap.1 ht
    split_ifs at ht with h1
    · cases ht
    obtain ⟨k, _, ht⟩ := List.mem_flatMap.1 ht
    split_ifs at ht with h2 h3
    · cases ht
    · cases ht
    · obtain ⟨k1, k2, k3, -⟩ := mem_rem3Innermost ht
      exact ⟨idx_ne nb k1 k2 h1, idx_ne nb k1 k3 (Ne.symm h3), idx_ne nb k2 k3 (by omega)⟩
  · obtain ⟨t, ht, rfl⟩ := noN3_contributions (fun t ht => (mem_rem3BBC pos own ht).1) hu
    rw [rem3BBC_eq] at ht
    obtain ⟨i, _, ht⟩ := List.mem_flatMap.1 ht
    obtain ⟨j, _, ht⟩ := List.mem_flatMap.1 ht
    split_ifs at ht with h1
    · cases ht
    obtain ⟨-, ⟨k1, k2, k3⟩ | ⟨k1, k2, k3, -⟩⟩ := mem_rem3Pair pos own ht
    · exact ⟨⟨inB (List.mem_of_getElem? k1), inB (List.mem_of_getElem? k2), inC k3⟩, idx_ne nb k1 k2 (Ne.symm h1),
        (hd _ k3 _ (List.mem_of_getElem? k1)).symm, (hd _ k3 _ (List.mem_of_getElem? k2)).symm⟩
    · exact ⟨⟨inC k3, inB (List.mem_of_getElem? k1), inB (List.mem_of_getElem? k2)⟩, hd _ k3 _ (List.mem_of_getElem? k1),
        hd _ k3 _ (List.mem_of_getElem? k2), idx_ne nb k1 k2 (Ne.symm h1)⟩
  · have hu : u ∈ contributions3 (rem3BufferContainerContainer pos own newton3 pb.flatten.length (pb.flatten ++ hb.flatten) cutoff cont) := hu
    rw [rem3BCC_eq, contributions3_flatMap] at hu
    obtain ⟨i, _, hu⟩ := List.mem_flatMap.1 hu
    unfold rem3Single at hu
    split at hu
    · rename_i p1 h1
      rw [contributions3_flatMap] at hu
      obtain ⟨w, hw, hu⟩ := List.mem_flatMap.1 hu
      have hm := mem_pairLoop hw
      have hne := pairLoop_ne (get := id) (l := regionAround pos own cutoff cont (ibOwnedOrHalo ||| ibForceSequential) (pos p1))
        (by rw [List.map_id]; exact nc.sublist List.filter_sublist) hw
      simp only [id] at hne
      have c1 := ((mem_regionAround pos own).1 hm.1).1
      have c2 := ((mem_regionAround pos own).1 hm.2).1
      have hb := List.mem_of_getElem? h1
      rcases mem_rem3Inner own hu with rfl | rfl | rfl
      · exact ⟨⟨inB hb, inC c1, inC c2⟩, (hd _ c1 _ hb).symm, (hd _ c2 _ hb).symm, hne⟩
      · exact ⟨⟨inC c1, inB hb, inC c2⟩, hd _ c1 _ hb, hne, (hd _ c2 _ hb).symm⟩
      · exact ⟨⟨inC c2, inB hb, inC c1⟩, hd _ c2 _ hb, hne.symm, (hd _ c1 _ hb).symm⟩
    · cases hu

theorem received_remainder3 (h : RemInput cont pb hb) {a b c : P} (hx : timesReceived3 (remainder3B pos own newton3 cutoff cont pb hb) a b c ≠ 0) :
    (a ∈ cont ++ (pb.flatten ++ hb.flatten) ∧ b ∈ cont ++ (pb.flatten ++ hb.flatten) ∧ c ∈ cont ++ (pb.flatten ++ hb.flatten)) ∧
      a ≠ b ∧ a ≠ c ∧ b ≠ c := by
  unfold timesReceived3 at hx
  rw [Nat.ne_zero_iff_zero_lt, List.countP_pos_iff] at hx
  obtain ⟨u, hu, hp⟩ := hx
  obtain ⟨⟨m1, m2, m3⟩, n1, n2, n3⟩ := mem_remainder3 h hu
  simp only [decide_eq_true_eq] at hp
  obtain ⟨rfl, ⟨rfl, rfl⟩ | ⟨rfl, rfl⟩⟩ := hp
  · exact ⟨⟨m1, m2, m3⟩, n1, n2, n3⟩
  · exact ⟨⟨m1, m3, m2⟩, n2, n1, n3.symm⟩

/-- The remainder traversal completes a container traversal. -/
theorem CompleteCalls3.with_remainder {calls : List (TripleCall P)} (H : CompleteCalls3 pos own cutoff cont calls) (hc : 0 ≤ cutoff)
    (hin : RemInput cont pb hb) (hh : ∀ x ∈ hb.flatten, own x = .halo) (newton3 : Bool) :
    CompleteCalls3 pos own cutoff (cont ++ (pb.flatten ++ hb.flatten)) (calls ++ remainder3B pos own newton3 cutoff cont pb hb) := by
  obtain ⟨nc, nb, hd⟩ := List.nodup_append.1 hin.nodup
  have zero : ∀ a b c, (a ∉ cont ∨ b ∉ cont ∨ c ∉ cont) → timesReceived3 calls a b c = 0 := by
    intro a b c h
    by_contra hx
    obtain ⟨g1, g2, g3, -⟩ := H.mem a b c hx
    tauto
  have hnb : ∀ x ∈ pb.flatten ++ hb.flatten, x ∉ cont := fun x hx hy => hd x hy x hx rfl
  refine ⟨?_, ?_, ?_⟩
  · intro a ha b hb' c hc' hab hac hbc hao hbo hco dab dac dbc
    rw [timesReceived3_append]
    have split : ∀ {x : P}, x ∈ cont ++ (pb.flatten ++ hb.flatten) → own x ≠ .dummy → x ∈ pb.flatten ++ hb.flatten ∨ (x ∈ cont ∧ own x ≠ .dummy) := by
      intro x hx ho
      rcases List.mem_append.1 hx with hx | hx
      · exact .inr ⟨hx, ho⟩
      · exact .inl hx
    rcases List.mem_append.1 ha with ha | ha
    · rcases List.mem_append.1 hb' with h1 | h1
      · rcases List.mem_append.1 hc' with h2 | h2
        · rw [C21_container_triplets_untouched hin a b c ha h1 h2, Nat.add_zero]
          exact H.once a ha b h1 c h2 hab hac hbc hao hbo hco dab dac dbc
        · rw [zero a b c (.inr (.inr (hnb c h2))), timesReceived3_comm,
            C21_container_particle_receives_each_once hin hc a c b ha hao hab (Ne.symm hbc) h2 (split hb' hbo) dac dab ?_]
          unfold Close at *
          rw [show distSq (pos c) (pos b) = distSq (pos b) (pos c) by simp only [distSq]; ring]; exact dbc
      · rw [zero a b c (.inr (.inl (hnb b h1))),
            C21_container_particle_receives_each_once hin hc a b c ha hao hac hbc h1 (split hc' hco) dab dac dbc]
    · rw [zero a b c (.inl (hnb a ha))]
      rcases List.mem_append.1 ha with ha | ha
      · rw [C21_buffered_particle_receives_each_once hin hc a b c ha hab hac hbc (split hb' hbo) (split hc' hco) dab dac]
      · rw [hh a ha] at hao; cases hao
  · intro a b c
    rw [timesReceived3_append]
    have h1 := H.most a b c
    by_cases hx : timesReceived3 (remainder3B pos own newton3 cutoff cont pb hb) a b c = 0
    · omega
    · obtain ⟨⟨m1, m2, m3⟩, n1, n2, n3⟩ := received_remainder3 hin hx
      have h2 := C21_no_contribution_twice (pos := pos) (own := own) (newton3 := newton3) (cutoff := cutoff) hin a b c n1 n2 n3 (by
        intro x hx
        simp only [List.mem_cons, List.not_mem_nil, or_false] at hx
        rcases hx with rfl | rfl | rfl <;> exact List.mem_append.1 (by assumption))
      by_cases hy : timesReceived3 calls a b c = 0
      · omega
      · obtain ⟨g1, g2, g3, -⟩ := H.mem a b c hy
        exact absurd (C21_container_triplets_untouched hin a b c g1 g2 g3) hx
  · intro a b c hx
    rw [timesReceived3_append] at hx
    by_cases hy : timesReceived3 calls a b c = 0
    · obtain ⟨⟨m1, m2, m3⟩, n⟩ := received_remainder3 hin (a := a) (b := b) (c := c) (pos := pos) (own := own) (newton3 := newton3) (cutoff := cutoff) (by rw [hy, Nat.zero_add] at hx; exact hx)
      exact ⟨m1, m2, m3, n⟩
    · obtain ⟨g1, g2, g3, n⟩ := H.mem a b c hy
      exact ⟨List.mem_append.2 (.inl g1), List.mem_append.2 (.inl g2), List.mem_append.2 (.inl g3), n⟩


omit [DecidableEq P] in
theorem unorderedPairs_eq (l : List P) : unorderedPairs l = pairLoop (fun _ _ => false) l := by
  induction l with
  | nil => rfl
  | cons x l ih =>
    have : untilBreak (fun _ => false) l = l := by
      induction l with
      | nil => rfl
      | cons y l ih => simp [untilBreak]
    simp only [unorderedPairs, pairLoop, ih, this]

/-- Sums over two lists of unordered pairs that agree where it matters. -/
theorem sum_sym {M : Type} [AddCommMonoid M] (G : P → P → M) (hG : ∀ b c, G b c = G c b) (L U : List (P × P))
    (h : ∀ b c, G b c ≠ 0 → L.countP (isPair id b c) = U.countP (isPair id b c)) :
    (L.map fun t => G t.1 t.2).sum = (U.map fun t => G t.1 t.2).sum := by
  classical
  let S : Sym2 P → M := Sym2.lift ⟨G, hG⟩
  have e : ∀ l : List (P × P), (l.map fun t => G t.1 t.2).sum = (((l.map fun t => s(t.1, t.2)).filter fun x => S x ≠ 0).map S).sum := by
    intro l
    induction l with
    | nil => rfl
    | cons t l ih =>
      have hS : S s(t.1, t.2) = G t.1 t.2 := rfl
      by_cases h0 : G t.1 t.2 = 0
      · rw [List.map_cons, List.sum_cons, h0, zero_add, ih, List.map_cons, List.filter_cons_of_neg (by simp [hS, h0])]
      · rw [List.map_cons, List.sum_cons, List.map_cons, List.filter_cons_of_pos (by simp [hS, h0]), List.map_cons, List.sum_cons, hS, ih]
  rw [e L, e U]
  refine (List.Perm.map S ?_).sum_eq
  rw [List.perm_iff_count]
  intro x
  induction x using Sym2.ind with
  | _ b c =>
    have hS : S s(b, c) = G b c := rfl
    by_cases h0 : G b c = 0
    · rw [List.count_eq_zero_of_not_mem, List.count_eq_zero_of_not_mem]
      · intro hm; have := (List.mem_filter.1 hm).2; simp [hS, h0] at this
      · intro hm; have := (List.mem_filter.1 hm).2; simp [hS, h0] at this
    · have key : ∀ l : List (P × P), ((l.map fun t => s(t.1, t.2)).filter fun x => S x ≠ 0).count s(b, c) = l.countP (isPair id b c) := by
        intro l
        rw [List.count_filter (by simp [hS, h0]), List.count_eq_countP, List.countP_map]
        apply List.countP_congr
        rintro ⟨x, y⟩ _
        simp [isPair]
      rw [key, key]
      exact h b c h0

/-- Complete calls accumulate the sum over all pairs of other particles. -/
theorem CompleteCalls3.accumulated {M : Type} [AddCommMonoid M] {all : List P} {calls : List (TripleCall P)}
    (H : CompleteCalls3 pos own cutoff all calls) (hall : all.Nodup) (F : P → P → P → M) (hsym : ∀ a b c, F a b c = F a c b)
    (hz : ∀ a ∈ all, ∀ b ∈ all, ∀ c ∈ all, a ≠ b → a ≠ c → b ≠ c → F a b c ≠ 0 →
      (own b ≠ .dummy ∧ own c ≠ .dummy) ∧ Close pos cutoff a b ∧ Close pos cutoff a c ∧ Close pos cutoff b c)
    (a : P) (ha : a ∈ all) (hao : own a = .owned) :
    accumulated3 F calls a = ((unorderedPairs (all.filter fun b => b ≠ a)).map fun t => F a t.1 t.2).sum := by
  unfold accumulated3
  have e : ((contributions3 calls).filter fun t => t.1 = a).map (fun t => F a t.2.1 t.2.2) =
      (((contributions3 calls).filter fun t => t.1 = a).map Prod.snd).map (fun t => F a t.1 t.2) := by rw [List.map_map]; rfl
  rw [e]
  refine sum_sym (F a) (hsym a) _ _ ?_
  intro b c hF
  have hcount : (((contributions3 calls).filter fun t => t.1 = a).map Prod.snd).countP (isPair id b c) = timesReceived3 calls a b c := by
    unfold timesReceived3
    rw [List.countP_map, List.countP_filter]
    apply List.countP_congr
    rintro ⟨x, y, z⟩ _
    simp only [isPair, Function.comp, id, Bool.and_eq_true, decide_eq_true_eq]
    tauto
  rw [hcount, unorderedPairs_eq]
  by_cases hm : a ∈ all ∧ b ∈ all ∧ c ∈ all ∧ a ≠ b ∧ a ≠ c ∧ b ≠ c
  · obtain ⟨-, mb, mc, n1, n2, n3⟩ := hm
    obtain ⟨⟨b0, c0⟩, d1, d2, d3⟩ := hz a ha b mb c mc n1 n2 n3 hF
    rw [H.once a ha b mb c mc n1 n2 n3 hao b0 c0 d1 d2 d3]
    refine (pairLoop_one n3 (hall.filter _) ?_ ?_).symm
    · exact List.mem_filter.2 ⟨mb, by simpa using n1.symm⟩
    · exact List.mem_filter.2 ⟨mc, by simpa using n2.symm⟩
  · have h0 : timesReceived3 calls a b c = 0 := by
      by_contra hx
      exact hm (H.mem a b c hx)
    rw [h0]
    symm
    rw [List.countP_eq_zero]
    intro t ht hp
    have h1 := mem_pairLoop ht
    have h2 := pairLoop_ne (get := id) (by rw [List.map_id]; exact hall.filter _) ht
    simp only [id, List.mem_filter, decide_eq_true_eq, ne_eq, decide_not, Bool.not_eq_true', decide_eq_false_iff_not] at h1 h2
    simp only [isPair, id, decide_eq_true_eq] at hp
    obtain ⟨⟨g1, g2⟩, g3, g4⟩ := h1
    apply hm
    rcases hp with ⟨rfl, rfl⟩ | ⟨rfl, rfl⟩
    · exact ⟨ha, g1, g3, fun e => g2 e.symm, fun e => g4 e.symm, h2⟩
    · exact ⟨ha, g3, g1, fun e => g4 e.symm, fun e => g2 e.symm, fun e => h2 e.symm⟩

end
end Verif
