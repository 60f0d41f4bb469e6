import Verif.Lemmas.Remainder3
/-!
# C21 — Freshly added particles take part in all three-body interactions

Notation as in C20. A triplet counts as interacting if its particles are pairwise closer than the cutoff.
-/
namespace Verif
open Spec

variable {P : Type} [DecidableEq P] {pos : P → V3 Rat} {own : P → Ownership} {newton3 : Bool} {cutoff : Rat}
  {cont : List P} {pb hb : List (List P)}

/-- Closer than the cutoff. -/
def Close (pos : P → V3 Rat) (cutoff : Rat) (a b : P) : Prop := distSq (pos a) (pos b) < cutoff * cutoff

omit [DecidableEq P] in
private theorem close_symm {a b : P} (h : Close pos cutoff a b) : Close pos cutoff b a := by
  unfold Close at *; rw [show distSq (pos b) (pos a) = distSq (pos a) (pos b) by simp only [distSq]; ring]; exact h

private theorem zero1 (h : RemInput cont pb hb) {a b c : P} (hout : a ∈ cont ∨ b ∈ cont ∨ c ∈ cont) :
    timesReceived3 (rem3BufferBufferBuffer pb.flatten.length (pb.flatten ++ hb.flatten)) a b c = 0 := by
  have hd := (List.nodup_append.1 h.nodup).2.2
  rw [timesReceived3_noN3 (fun t ht => (mem_rem3BBB ht).2.2.2)]
  unfold timesTripleFirst
  rw [List.countP_eq_zero]
  intro t ht hp
  obtain ⟨h1, h2, h3, -⟩ := mem_rem3BBB ht
  simp only [decide_eq_true_eq] at hp
  obtain ⟨rfl, ⟨rfl, rfl⟩ | ⟨rfl, rfl⟩⟩ := hp <;> rcases hout with ho | ho | ho <;>
    first
    | exact hd _ ho _ h1 rfl
    | exact hd _ ho _ h2 rfl
    | exact hd _ ho _ h3 rfl

/-- `n` of the three particles are buffered. -/
private def nBuf (buf : List P) (a b c : P) : Nat :=
  (if a ∈ buf then 1 else 0) + (if b ∈ buf then 1 else 0) + (if c ∈ buf then 1 else 0)

private theorem zero2 (h : RemInput cont pb hb) {a b c : P} (hn : nBuf (pb.flatten ++ hb.flatten) a b c ≠ 2) :
    timesReceived3 (rem3BufferBufferContainer pos own pb.flatten.length (pb.flatten ++ hb.flatten) cutoff cont) a b c
      = 0 := by
  have hd := (List.nodup_append.1 h.nodup).2.2
  rw [timesReceived3_noN3 (fun t ht => (mem_rem3BBC pos own ht).1)]
  unfold timesTripleFirst
  rw [List.countP_eq_zero]
  intro t ht hp
  obtain ⟨-, h1⟩ := mem_rem3BBC pos own ht
  simp only [decide_eq_true_eq] at hp
  apply hn
  have hnb : ∀ x ∈ cont, x ∉ pb.flatten ++ hb.flatten := fun x hx hb => hd x hx x hb rfl
  unfold nBuf
  rcases h1 with ⟨h1, h2, h3⟩ | ⟨h1, h2, h3⟩ <;> obtain ⟨rfl, ⟨rfl, rfl⟩ | ⟨rfl, rfl⟩⟩ := hp <;>
    (rw [if_pos h1, if_pos h2, if_neg (hnb _ h3)])

private theorem zero3 (h : RemInput cont pb hb) {a b c : P} (hn : nBuf (pb.flatten ++ hb.flatten) a b c ≠ 1) :
    timesReceived3 (rem3BufferContainerContainer pos own newton3 pb.flatten.length (pb.flatten ++ hb.flatten) cutoff cont)
      a b c = 0 := by
  have hd := (List.nodup_append.1 h.nodup).2.2
  unfold timesReceived3
  rw [List.countP_eq_zero]
  intro t ht hp
  have h1 := mem_rem3BCC pos own ht
  simp only [decide_eq_true_eq] at hp
  apply hn
  have hnb : ∀ x ∈ cont, x ∉ pb.flatten ++ hb.flatten := fun x hx hb => hd x hx x hb rfl
  unfold nBuf
  rcases h1 with ⟨h1, h2, h3⟩ | ⟨h1, h2, h3⟩ <;> obtain ⟨rfl, ⟨rfl, rfl⟩ | ⟨rfl, rfl⟩⟩ := hp <;>
    first
    | rw [if_pos h1, if_neg (hnb _ h2), if_neg (hnb _ h3)]
    | rw [if_neg (hnb _ h1), if_pos h2, if_neg (hnb _ h3)]

private theorem idx_lt_iff {i : Nat} {a : P} (h : RemInput cont pb hb) (hi : (pb.flatten ++ hb.flatten)[i]? = some a) :
    i < pb.flatten.length ↔ a ∈ pb.flatten := by
  have hnd := (List.nodup_append.1 h.nodup).2.1
  have hdis := (List.nodup_append.1 hnd).2.2
  constructor
  · intro hlt
    rw [List.getElem?_append_left hlt] at hi
    exact List.mem_of_getElem? hi
  · intro ha
    by_contra hge
    rw [List.getElem?_append_right (by omega)] at hi
    exact hdis a ha a (List.mem_of_getElem? hi) rfl

private theorem region_mem {cutoff : Rat} (hc : 0 ≤ cutoff) {a b : P} (hb : b ∈ cont) (hd : own b ≠ .dummy)
    (hab : Close pos cutoff a b) : b ∈ regionAround pos own cutoff cont ibOwnedOrHalo (pos a) ∧
      b ∈ regionAround pos own cutoff cont (ibOwnedOrHalo ||| ibForceSequential) (pos a) :=
  ⟨(mem_regionAround pos own).2 ⟨hb, (fulfills_ownedOrHalo _).2 hd, inBox_of_dist hc hab⟩,
    (mem_regionAround pos own).2 ⟨hb, (fulfills_ownedOrHaloSeq _).2 hd, inBox_of_dist hc hab⟩⟩

omit [DecidableEq P] in
private theorem region_nodup (hnd : cont.Nodup) (b : Nat) (p : V3 Rat) : (regionAround pos own cutoff cont b p).Nodup :=
  hnd.sublist List.filter_sublist

private theorem pair_once {l : List P} (hnd : l.Nodup) {b c : P} (hb : b ∈ l) (hc : c ∈ l) (hbc : b ≠ c) :
    (pairLoop (fun _ _ => false) l).countP (isPair id b c) = 1 :=
  pairLoop_eq_one (get := id) (key := fun _ => 0) (stop := fun _ _ => false) (l := l) (u := b) (v := c)
    (List.pairwise_of_forall (fun _ _ => le_refl _)) (by simpa using hnd) hbc hb hc (by simp) rfl rfl

/-- An owned buffered particle receives exactly one contribution from every two other particles with which it forms an
interacting triplet, wherever these are stored. -/
theorem C21_buffered_particle_receives_each_once (h : RemInput cont pb hb) (hc : 0 ≤ cutoff) (a b c : P)
    (ha : a ∈ pb.flatten) (hab : a ≠ b) (hac : a ≠ c) (hbc : b ≠ c)
    (hb' : b ∈ pb.flatten ++ hb.flatten ∨ (b ∈ cont ∧ own b ≠ .dummy))
    (hc' : c ∈ pb.flatten ++ hb.flatten ∨ (c ∈ cont ∧ own c ≠ .dummy))
    (dab : Close pos cutoff a b) (dac : Close pos cutoff a c) :
    timesReceived3 (remainder3B pos own newton3 cutoff cont pb hb) a b c = 1 := by
  obtain ⟨nc, nb, hd⟩ := List.nodup_append.1 h.nodup
  have hdis : ∀ p ∈ pb.flatten ++ hb.flatten, p ∉ cont := fun p hp hq => hd p hq p hp rfl
  have hnb : ∀ x ∈ cont, x ∉ pb.flatten ++ hb.flatten := fun x hx hb => hd x hx x hb rfl
  have ha' : a ∈ pb.flatten ++ hb.flatten := List.mem_append.2 (Or.inl ha)
  obtain ⟨i, -, hi⟩ := exists_idx ha'
  have hio := (idx_lt_iff h hi).2 ha
  have hne : ∀ {j : Nat} {y : P}, (pb.flatten ++ hb.flatten)[j]? = some y → a ≠ y → i ≠ j := by
    intro j y hy hay e
    subst e
    rw [hi] at hy
    exact hay (Option.some.inj hy)
  unfold remainder3B
  simp only [timesReceived3_append]
  rcases hb' with hb' | ⟨hb', hbd⟩ <;> rcases hc' with hc' | ⟨hc', hcd⟩
  · obtain ⟨j, -, hj⟩ := exists_idx hb'
    obtain ⟨k, -, hk⟩ := exists_idx hc'
    rw [rem3BBB_count nb hi hj hk (hne hj hab) (hne hk hac)
      (fun e => hbc (by subst e; rw [hj] at hk; exact Option.some.inj hk)), if_pos hio,
      zero2 h (by simp only [nBuf, if_pos ha', if_pos hb', if_pos hc']; omega),
      zero3 h (by simp only [nBuf, if_pos ha', if_pos hb', if_pos hc']; omega)]
  · obtain ⟨j, -, hj⟩ := exists_idx hb'
    rw [zero1 h (Or.inr (Or.inr hc')), rem3BBC_count_buffer pos own nb nc hdis hi hj hc' (hne hj hab),
      if_pos (region_mem hc hc' hcd dac).1, if_pos hio,
      zero3 h (by simp only [nBuf, if_pos ha', if_pos hb', if_neg (hnb _ hc')]; omega)]
  · obtain ⟨j, -, hj⟩ := exists_idx hc'
    rw [zero1 h (Or.inr (Or.inl hb')),
      timesReceived3_comm (rem3BufferBufferContainer pos own pb.flatten.length (pb.flatten ++ hb.flatten) cutoff cont),
      rem3BBC_count_buffer pos own nb nc hdis hi hj hb' (hne hj hac), if_pos (region_mem hc hb' hbd dab).1, if_pos hio,
      zero3 h (by simp only [nBuf, if_pos ha', if_pos hc', if_neg (hnb _ hb')]; omega)]
  · rw [zero1 h (Or.inr (Or.inl hb')),
      zero2 h (by simp only [nBuf, if_pos ha', if_neg (hnb _ hb'), if_neg (hnb _ hc')]; omega),
      rem3BCC_count_buffer pos own newton3 nb nc hdis hi hb' hc' hbc, if_pos (Or.inr hio),
      pair_once (region_nodup nc _ _) (region_mem hc hb' hbd dab).2 (region_mem hc hc' hcd dac).2 hbc]

/-- An owned particle in the container receives exactly one contribution from every two particles with which it forms an
interacting triplet if at least one of them (`b`) is buffered. -/
theorem C21_container_particle_receives_each_once (h : RemInput cont pb hb) (hc : 0 ≤ cutoff) (a b c : P)
    (ha : a ∈ cont) (hao : own a = .owned) (hac : a ≠ c) (hbc : b ≠ c) (hb' : b ∈ pb.flatten ++ hb.flatten)
    (hc' : c ∈ pb.flatten ++ hb.flatten ∨ (c ∈ cont ∧ own c ≠ .dummy))
    (dab : Close pos cutoff a b) (dac : Close pos cutoff a c) (dbc : Close pos cutoff b c) :
    timesReceived3 (remainder3B pos own newton3 cutoff cont pb hb) a b c = 1 := by
  obtain ⟨nc, nb, hd⟩ := List.nodup_append.1 h.nodup
  have hdis : ∀ p ∈ pb.flatten ++ hb.flatten, p ∉ cont := fun p hp hq => hd p hq p hp rfl
  have hnb : ∀ x ∈ cont, x ∉ pb.flatten ++ hb.flatten := fun x hx hb => hd x hx x hb rfl
  have had : own a ≠ .dummy := by simp [hao]
  have hah : own a ≠ .halo := by simp [hao]
  unfold remainder3B
  simp only [timesReceived3_append]
  rw [zero1 h (Or.inl ha)]
  rcases hc' with hc' | ⟨hc', hcd⟩
  · obtain ⟨j, -, hj⟩ := exists_idx hb'
    obtain ⟨k, -, hk⟩ := exists_idx hc'
    have hjk : j ≠ k := fun e => hbc (by subst e; rw [hj] at hk; exact Option.some.inj hk)
    rw [zero3 h (by simp only [nBuf, if_pos hb', if_pos hc', if_neg (hnb _ ha)]; omega)]
    rcases Nat.lt_or_gt_of_ne hjk with hlt | hlt
    · rw [rem3BBC_count_container pos own nb nc hdis ha hj hk hlt, if_pos (region_mem hc ha had (close_symm dab)).1,
        if_pos hah]
    · rw [timesReceived3_comm, rem3BBC_count_container pos own nb nc hdis ha hk hj hlt,
        if_pos (region_mem hc ha had (close_symm dac)).1, if_pos hah]
  · obtain ⟨j, -, hj⟩ := exists_idx hb'
    rw [zero2 h (by simp only [nBuf, if_pos hb', if_neg (hnb _ ha), if_neg (hnb _ hc')]; omega),
      rem3BCC_count_container pos own newton3 nb nc hdis ha hj hc' hac, if_pos (Or.inr hao),
      pair_once (region_nodup nc _ _) (region_mem hc ha had (close_symm dab)).2 (region_mem hc hc' hcd dbc).2
        hac]

/-- No contribution of three different particles is made twice. -/
theorem C21_no_contribution_twice (h : RemInput cont pb hb) (a b c : P)
    (hab : a ≠ b) (hac : a ≠ c) (hbc : b ≠ c)
    (hall : ∀ x ∈ [a, b, c], x ∈ cont ∨ x ∈ pb.flatten ++ hb.flatten) :
    timesReceived3 (remainder3B pos own newton3 cutoff cont pb hb) a b c ≤ 1 := by
  obtain ⟨nc, nb, hd⟩ := List.nodup_append.1 h.nodup
  have hdis : ∀ p ∈ pb.flatten ++ hb.flatten, p ∉ cont := fun p hp hq => hd p hq p hp rfl
  have hnb : ∀ x ∈ cont, x ∉ pb.flatten ++ hb.flatten := fun x hx hb => hd x hx x hb rfl
  have hidx : ∀ {i j : Nat} {x y : P}, (pb.flatten ++ hb.flatten)[i]? = some x → (pb.flatten ++ hb.flatten)[j]? = some y →
      x ≠ y → i ≠ j := by
    intro i j x y hx hy hxy e
    subst e
    rw [hx] at hy
    exact hxy (Option.some.inj hy)
  have hle : ∀ (l : List P) (x y : P), l.Nodup → x ≠ y →
      (pairLoop (fun _ _ => false) l).countP (isPair id x y) ≤ 1 := fun l x y hl hxy =>
    pairLoop_le_one hxy (by simpa using hl)
  unfold remainder3B
  simp only [timesReceived3_append]
  rcases hall a (by simp) with ha | ha <;> rcases hall b (by simp) with hb' | hb' <;>
    rcases hall c (by simp) with hc' | hc'
  · rw [zero1 h (Or.inl ha), zero2 h (by simp only [nBuf, if_neg (hnb _ ha), if_neg (hnb _ hb'), if_neg (hnb _ hc')]; omega),
      zero3 h (by simp only [nBuf, if_neg (hnb _ ha), if_neg (hnb _ hb'), if_neg (hnb _ hc')]; omega)]
    omega
  · obtain ⟨k, -, hk⟩ := exists_idx hc'
    rw [zero1 h (Or.inl ha), zero2 h (by simp only [nBuf, if_neg (hnb _ ha), if_neg (hnb _ hb'), if_pos hc']; omega),
      timesReceived3_comm, rem3BCC_count_container pos own newton3 nb nc hdis ha hk hb' hab]
    have := hle _ a b (region_nodup (pos := pos) (own := own) (cutoff := cutoff) nc (ibOwnedOrHalo ||| ibForceSequential) (pos c)) hab
    split_ifs <;> omega
  · obtain ⟨k, -, hk⟩ := exists_idx hb'
    rw [zero1 h (Or.inl ha), zero2 h (by simp only [nBuf, if_neg (hnb _ ha), if_neg (hnb _ hc'), if_pos hb']; omega),
      rem3BCC_count_container pos own newton3 nb nc hdis ha hk hc' hac]
    have := hle _ a c (region_nodup (pos := pos) (own := own) (cutoff := cutoff) nc (ibOwnedOrHalo ||| ibForceSequential) (pos b)) hac
    split_ifs <;> omega
  · obtain ⟨j, -, hj⟩ := exists_idx hb'
    obtain ⟨k, -, hk⟩ := exists_idx hc'
    rw [zero1 h (Or.inl ha), zero3 h (by simp only [nBuf, if_neg (hnb _ ha), if_pos hb', if_pos hc']; omega)]
    rcases Nat.lt_or_gt_of_ne (hidx hj hk hbc) with hlt | hlt
    · rw [rem3BBC_count_container pos own nb nc hdis ha hj hk hlt]
      split_ifs <;> omega
    · rw [timesReceived3_comm, rem3BBC_count_container pos own nb nc hdis ha hk hj hlt]
      split_ifs <;> omega
  · obtain ⟨i, -, hi⟩ := exists_idx ha
    rw [zero1 h (Or.inr (Or.inl hb')),
      zero2 h (by simp only [nBuf, if_pos ha, if_neg (hnb _ hb'), if_neg (hnb _ hc')]; omega),
      rem3BCC_count_buffer pos own newton3 nb nc hdis hi hb' hc' hbc]
    have := hle _ b c (region_nodup (pos := pos) (own := own) (cutoff := cutoff) nc (ibOwnedOrHalo ||| ibForceSequential) (pos a)) hbc
    split_ifs <;> omega
  · obtain ⟨i, -, hi⟩ := exists_idx ha
    obtain ⟨k, -, hk⟩ := exists_idx hc'
    rw [zero1 h (Or.inr (Or.inl hb')), zero3 h (by simp only [nBuf, if_pos ha, if_neg (hnb _ hb'), if_pos hc']; omega),
      timesReceived3_comm, rem3BBC_count_buffer pos own nb nc hdis hi hk hb' (hidx hi hk hac)]
    split_ifs <;> omega
  · obtain ⟨i, -, hi⟩ := exists_idx ha
    obtain ⟨j, -, hj⟩ := exists_idx hb'
    rw [zero1 h (Or.inr (Or.inr hc')), zero3 h (by simp only [nBuf, if_pos ha, if_neg (hnb _ hc'), if_pos hb']; omega),
      rem3BBC_count_buffer pos own nb nc hdis hi hj hc' (hidx hi hj hab)]
    split_ifs <;> omega
  · obtain ⟨i, -, hi⟩ := exists_idx ha
    obtain ⟨j, -, hj⟩ := exists_idx hb'
    obtain ⟨k, -, hk⟩ := exists_idx hc'
    rw [zero2 h (by simp only [nBuf, if_pos ha, if_pos hb', if_pos hc']; omega),
      zero3 h (by simp only [nBuf, if_pos ha, if_pos hb', if_pos hc']; omega),
      rem3BBB_count nb hi hj hk (hidx hi hj hab) (hidx hi hk hac) (hidx hj hk hbc)]
    split_ifs <;> omega

/-- Triplets of container particles are left to the container traversal. -/
theorem C21_container_triplets_untouched (h : RemInput cont pb hb) (a b c : P) (ha : a ∈ cont) (hb' : b ∈ cont)
    (hc' : c ∈ cont) : timesReceived3 (remainder3B pos own newton3 cutoff cont pb hb) a b c = 0 := by
  obtain ⟨nc, nb, hd⟩ := List.nodup_append.1 h.nodup
  have hnb : ∀ x ∈ cont, x ∉ pb.flatten ++ hb.flatten := fun x hx hb => hd x hx x hb rfl
  unfold remainder3B
  simp only [timesReceived3_append]
  rw [zero1 h (Or.inl ha), zero2 h (by simp only [nBuf, if_neg (hnb _ ha), if_neg (hnb _ hb'), if_neg (hnb _ hc')]; omega),
    zero3 h (by simp only [nBuf, if_neg (hnb _ ha), if_neg (hnb _ hb'), if_neg (hnb _ hc')]; omega)]

-- 0..2 in the container, 3, 4 buffered, 5 a buffered halo particle
example : RemInput [0, 1, 2] [[3, 4], []] [[], [5]] := ⟨by decide, rfl⟩
example : timesReceived3 (remainder3B (P := Nat) (fun n => ⟨n, 0, 0⟩) (fun n => if n < 5 then .owned else .halo) false 4
    [0, 1, 2] [[3, 4], []] [[], [5]]) 3 1 5 = 1 := by decide +kernel
example : timesReceived3 (remainder3B (P := Nat) (fun n => ⟨n, 0, 0⟩) (fun n => if n < 5 then .owned else .halo) true 4
    [0, 1, 2] [[3, 4], []] [[], [5]]) 1 2 4 = 1 := by decide +kernel
example : Close (fun n : Nat => ⟨n, 0, 0⟩) 4 2 5 := by unfold Close; norm_num [distSq]

end Verif
