import Verif.Model.Remainder
import Verif.Spec.Calls
import Verif.Lemmas.CellLoops
import Verif.Lemmas.Nodup
import Verif.Lemmas.BalanceVectors
import Mathlib.Data.List.GetD
import Mathlib.Data.List.Perm.Subperm
import Mathlib.Tactic.Linarith
import Mathlib.Data.Nat.ModEq
/-! Contributions of the remainder traversals. -/
namespace Verif
open Spec

section lists
variable {α β : Type}

/-- Looping over the indices and then over the vectors is looping over all elements. -/
theorem range_getD_flatMap (l : List (List α)) (f : α → List β) :
    ((List.range l.length).flatMap fun i => (l.getD i []).flatMap f) = l.flatten.flatMap f := by
  induction l with
  | nil => rfl
  | cons v l ih =>
    rw [List.length_cons, List.range_succ_eq_map, List.flatMap_cons, List.flatMap_map, List.flatten_cons,
      List.flatMap_append, ← ih]
    simp

/-- `(i + jj) % n` runs through all indices. -/
theorem range_rotate_perm (n i : Nat) : ((List.range n).map fun jj => (i + jj) % n).Perm (List.range n) := by
  rcases Nat.eq_zero_or_pos n with rfl | hn
  · simp
  have hnd : ((List.range n).map fun jj => (i + jj) % n).Nodup := by
    refine List.Nodup.map_on ?_ List.nodup_range
    intro x hx y hy h
    rw [List.mem_range] at hx hy
    have h1 : Nat.ModEq n (i + x) (i + y) := h
    have h2 : Nat.ModEq n x y := Nat.ModEq.add_left_cancel' i h1
    exact Nat.ModEq.eq_of_lt_of_lt h2 hx hy
  refine (List.subperm_of_subset hnd ?_).perm_of_length_le (by simp)
  intro x hx
  obtain ⟨jj, _, rfl⟩ := List.mem_map.1 hx
  exact List.mem_range.2 (Nat.mod_lt _ hn)

theorem flatMap_swap_perm {γ : Type} (l₁ : List α) (l₂ : List γ) (f : α → γ → List β) :
    (l₁.flatMap fun a => l₂.flatMap fun c => f a c).Perm (l₂.flatMap fun c => l₁.flatMap fun a => f a c) := by
  induction l₁ with
  | nil => simp
  | cons a l ih =>
    simp only [List.flatMap_cons]
    exact (List.Perm.append_left _ ih).trans (List.flatMap_append_perm l₂ _ _)

theorem flatten_nodup_idx {l : List (List α)} (h : l.flatten.Nodup) {i j : Nat} {x : α} (hi : x ∈ l.getD i [])
    (hj : x ∈ l.getD j []) : i = j := by
  induction l generalizing i j with
  | nil => simp at hi
  | cons v l ih =>
    rw [List.flatten_cons, List.nodup_append] at h
    have key : ∀ k, x ∈ l.getD k [] → x ∈ l.flatten := by
      intro k hk
      by_cases hlt : k < l.length
      · rw [List.getD_eq_getElem _ _ hlt] at hk
        exact List.mem_flatten.2 ⟨_, List.getElem_mem hlt, hk⟩
      · rw [List.getD_eq_default _ _ (by omega)] at hk
        cases hk
    cases i <;> cases j
    · rfl
    · simp only [List.getD_cons_zero, List.getD_cons_succ] at hi hj
      exact absurd rfl (h.2.2 x hi x (key _ hj))
    · simp only [List.getD_cons_zero, List.getD_cons_succ] at hi hj
      exact absurd rfl (h.2.2 x hj x (key _ hi))
    · simp only [List.getD_cons_succ] at hi hj
      rw [ih h.2.1 hi hj]

theorem mem_flatten_getD {l : List (List α)} {x : α} : x ∈ l.flatten ↔ ∃ i < l.length, x ∈ l.getD i [] := by
  rw [List.mem_flatten]
  constructor
  · rintro ⟨v, hv, hx⟩
    obtain ⟨i, hi, rfl⟩ := List.getElem_of_mem hv
    exact ⟨i, hi, by rwa [List.getD_eq_getElem _ _ hi]⟩
  · rintro ⟨i, hi, hx⟩
    rw [List.getD_eq_getElem _ _ hi] at hx
    exact ⟨_, List.getElem_mem hi, hx⟩

theorem getD_nodup {l : List (List α)} (h : l.flatten.Nodup) (i : Nat) : (l.getD i []).Nodup := by
  by_cases hlt : i < l.length
  · rw [List.getD_eq_getElem _ _ hlt]
    exact (List.nodup_flatten.1 h).1 _ (List.getElem_mem hlt)
  · rw [List.getD_eq_default _ _ (by omega)]; exact List.nodup_nil

theorem mem_of_getD {l : List (List α)} {i : Nat} {x : α} (h : x ∈ l.getD i []) : i < l.length := by
  by_contra hc
  rw [List.getD_eq_default _ _ (by omega)] at h
  cases h

end lists

variable {P : Type} [DecidableEq P]

omit [DecidableEq P] in
theorem contributions_append (l₁ l₂ : List (PairCall P)) :
    contributions (l₁ ++ l₂) = contributions l₁ ++ contributions l₂ := by simp [contributions]

omit [DecidableEq P] in
theorem contributions_flatMap {α : Type} (l : List α) (f : α → List (PairCall P)) :
    contributions (l.flatMap f) = l.flatMap fun x => contributions (f x) := by
  simp [contributions, List.flatMap_assoc]

omit [DecidableEq P] in
theorem contributions_perm {l₁ l₂ : List (PairCall P)} (h : l₁.Perm l₂) :
    (contributions l₁).Perm (contributions l₂) := h.flatMap_right _

theorem untilBreak_false {X : Type} (l : List X) : untilBreak (fun _ => false) l = l := by
  unfold untilBreak
  rw [List.takeWhile_eq_self_iff]
  simp

/-- Contributions within one buffer. -/
theorem nodup_single {l : List P} (hnd : l.Nodup) : (contributions (soaSingleN3 l)).Nodup := by
  induction l with
  | nil => simp [soaSingleN3, pairLoop, contributions]
  | cons x l ih =>
    rw [List.nodup_cons] at hnd
    have hm : ∀ t ∈ contributions (soaSingleN3 l), t.1 ∈ l ∧ t.2 ∈ l := by
      intro t ht
      simp only [contributions, soaSingleN3, List.mem_flatMap, List.mem_map] at ht
      obtain ⟨c, ⟨u, hu, rfl⟩, hc⟩ := ht
      have := mem_pairLoop hu
      simp only [if_true, List.mem_cons, List.not_mem_nil, or_false] at hc
      rcases hc with rfl | rfl
      · exact this
      · exact ⟨this.2, this.1⟩
    have e : soaSingleN3 (x :: l) = (l.map fun y => (⟨x, y, true⟩ : PairCall P)) ++ soaSingleN3 l := by
      simp [soaSingleN3, pairLoop, untilBreak_false, List.map_map, Function.comp_def]
    rw [e, contributions_append]
    have hm2 : ∀ t ∈ contributions (l.map fun y => (⟨x, y, true⟩ : PairCall P)),
        (t.1 = x ∧ t.2 ∈ l) ∨ (t.2 = x ∧ t.1 ∈ l) := by
      intro t ht
      simp only [contributions, List.mem_flatMap, List.mem_map] at ht
      obtain ⟨c, ⟨y, hy, rfl⟩, hc⟩ := ht
      simp only [if_true, List.mem_cons, List.not_mem_nil, or_false] at hc
      rcases hc with rfl | rfl
      · exact Or.inl ⟨rfl, hy⟩
      · exact Or.inr ⟨rfl, hy⟩
    rw [List.nodup_append]
    refine ⟨?_, ih hnd.2, ?_⟩
    · simp only [contributions, List.flatMap_map]
      refine nodup_flatMap_key (fun t => if t.1 = x then t.2 else t.1) hnd.2 ?_ ?_
      · intro y hy
        have hxy : x ≠ y := fun h => hnd.1 (h ▸ hy)
        simp [hxy]
      · intro y hy t ht
        have hxy : y ≠ x := fun h => hnd.1 (h ▸ hy)
        simp only [if_true, List.mem_cons, List.not_mem_nil, or_false] at ht
        rcases ht with rfl | rfl
        · simp
        · simp [hxy]
    · intro t ht s hs e
      subst e
      have h1 := hm t hs
      rcases hm2 t ht with h | h
      · exact hnd.1 (h.1 ▸ h1.1)
      · exact hnd.1 (h.1 ▸ h1.2)

theorem mem_single {l : List P} (hnd : l.Nodup) {a b : P} :
    (a, b) ∈ contributions (soaSingleN3 l) ↔ a ∈ l ∧ b ∈ l ∧ a ≠ b := by
  constructor
  · intro ht
    simp only [contributions, soaSingleN3, List.mem_flatMap, List.mem_map] at ht
    obtain ⟨c, ⟨u, hu, rfl⟩, hc⟩ := ht
    have := mem_pairLoop hu
    have hne := pairLoop_ne (get := id) (by simpa using hnd) hu
    simp only [if_true, List.mem_cons, Prod.mk.injEq, List.not_mem_nil, or_false] at hc
    rcases hc with ⟨rfl, rfl⟩ | ⟨rfl, rfl⟩
    · exact ⟨this.1, this.2, hne⟩
    · exact ⟨this.2, this.1, Ne.symm hne⟩
  · rintro ⟨ha, hb, hab⟩
    have h1 := pairLoop_eq_one (get := id) (key := fun _ => 0) (stop := fun _ _ => false) (l := l) (u := a) (v := b)
      (List.pairwise_of_forall (fun _ _ => le_refl _)) (by simpa using hnd) hab ha hb (by simp) rfl rfl
    have h2 : 0 < (pairLoop (fun _ _ => false) l).countP (isPair id a b) := by
      simp only [id] at h1 ⊢
      omega
    rw [List.countP_pos_iff] at h2
    obtain ⟨u, hu, hp⟩ := h2
    simp only [isPair, id, decide_eq_true_eq] at hp
    simp only [contributions, soaSingleN3, List.mem_flatMap, List.mem_map]
    refine ⟨_, ⟨u, hu, rfl⟩, ?_⟩
    simp only [if_true, List.mem_cons, Prod.mk.injEq, List.not_mem_nil, or_false]
    rcases hp with h | h
    · exact Or.inl ⟨h.1.symm, h.2.symm⟩
    · exact Or.inr ⟨h.2.symm, h.1.symm⟩

omit [DecidableEq P] in
theorem contributions_pair (l₁ l₂ : List P) :
    contributions (soaPairNoN3 l₁ l₂) = l₁.flatMap fun x => l₂.map fun y => (x, y) := by
  simp [contributions, soaPairNoN3, crossLoop, untilBreak_false, List.flatMap_map, List.map_flatMap, List.flatMap_assoc,
    List.map_map, Function.comp_def, List.map_eq_flatMap]

omit [DecidableEq P] in
theorem nodup_cross {l₁ l₂ : List P} (h₁ : l₁.Nodup) (h₂ : l₂.Nodup) :
    (l₁.flatMap fun x => l₂.map fun y => (x, y)).Nodup := by
  refine nodup_flatMap_key (fun t => t.1) h₁ ?_ ?_
  · intro x _
    exact h₂.map (fun a b h => by simpa using h)
  · intro x _ t ht
    obtain ⟨y, _, rfl⟩ := List.mem_map.1 ht
    rfl

/-- All ordered pairs of different elements of the buffers. -/
theorem bufferBuffer_spec {pb : List (List P)} (hnd : pb.flatten.Nodup) :
    (contributions (remBufferBuffer pb)).Nodup ∧
      ∀ a b, (a, b) ∈ contributions (remBufferBuffer pb) ↔ a ∈ pb.flatten ∧ b ∈ pb.flatten ∧ a ≠ b := by
  set block : Nat → Nat → List (P × P) := fun i j =>
    if i = j then contributions (soaSingleN3 (pb.getD i [])) else contributions (soaPairNoN3 (pb.getD i []) (pb.getD j []))
    with hblock
  have hperm : (contributions (remBufferBuffer pb)).Perm
      ((List.range pb.length).flatMap fun i => (List.range pb.length).flatMap fun j => block i j) := by
    unfold remBufferBuffer remBufferBufferTask
    rw [contributions_flatMap]
    apply List.Perm.flatMap_left
    intro i _
    rw [contributions_flatMap]
    have := (range_rotate_perm pb.length i).flatMap_right (block i)
    rw [List.flatMap_map] at this
    refine List.Perm.trans (List.Perm.of_eq ?_) this
    apply List.flatMap_congr
    intro jj _
    simp only [hblock]
    split_ifs <;> rfl
  have hmem : ∀ i j a b, (a, b) ∈ block i j → a ∈ pb.getD i [] ∧ b ∈ pb.getD j [] ∧ a ≠ b := by
    intro i j a b h
    simp only [hblock] at h
    split_ifs at h with e
    · subst e
      exact (mem_single (getD_nodup hnd i)).1 h
    · rw [contributions_pair] at h
      simp only [List.mem_flatMap, List.mem_map, Prod.mk.injEq] at h
      obtain ⟨x, hx, y, hy, rfl, rfl⟩ := h
      exact ⟨hx, hy, fun h => e (flatten_nodup_idx hnd hx (h ▸ hy))⟩
  have hn : ∀ i j, (block i j).Nodup := by
    intro i j
    simp only [hblock]
    split_ifs
    · exact nodup_single (getD_nodup hnd i)
    · rw [contributions_pair]; exact nodup_cross (getD_nodup hnd i) (getD_nodup hnd j)
  let idx : P → Nat := fun x => pb.findIdx (fun v => x ∈ v)
  have hidx : ∀ i x, x ∈ pb.getD i [] → idx x = i := by
    intro i x hx
    have hi := mem_of_getD hx
    have hx' := hx
    rw [List.getD_eq_getElem _ _ hi] at hx
    have hlt : idx x < pb.length := List.findIdx_lt_length_of_exists ⟨_, List.getElem_mem hi, by simpa using hx⟩
    have hget : x ∈ pb[idx x] := by
      have := List.findIdx_getElem (w := hlt)
      simpa using this
    refine flatten_nodup_idx hnd (x := x) ?_ hx'
    rw [List.getD_eq_getElem _ _ hlt]; exact hget
  refine ⟨hperm.nodup_iff.2 ?_, ?_⟩
  · refine nodup_flatMap_key (fun t => idx t.1) List.nodup_range ?_ ?_
    · intro i _
      refine nodup_flatMap_key (fun t => idx t.2) List.nodup_range (fun j _ => hn i j) ?_
      rintro j _ ⟨a, b⟩ ht
      exact hidx _ _ (hmem i j a b ht).2.1
    · rintro i _ ⟨a, b⟩ ht
      obtain ⟨j, _, ht⟩ := List.mem_flatMap.1 ht
      exact hidx _ _ (hmem i j a b ht).1
  · intro a b
    rw [hperm.mem_iff]
    simp only [List.mem_flatMap, List.mem_range]
    constructor
    · rintro ⟨i, hi, j, hj, h⟩
      have := hmem i j a b h
      exact ⟨mem_flatten_getD.2 ⟨i, hi, this.1⟩, mem_flatten_getD.2 ⟨j, hj, this.2.1⟩, this.2.2⟩
    · rintro ⟨ha, hb, hab⟩
      obtain ⟨i, hi, ha⟩ := mem_flatten_getD.1 ha
      obtain ⟨j, hj, hb⟩ := mem_flatten_getD.1 hb
      refine ⟨i, hi, j, hj, ?_⟩
      simp only [hblock]
      split_ifs with e
      · subst e
        exact (mem_single (getD_nodup hnd i)).2 ⟨ha, hb, hab⟩
      · rw [contributions_pair]
        simp only [List.mem_flatMap, List.mem_map, Prod.mk.injEq]
        exact ⟨a, ha, b, hb, rfl, rfl⟩

omit [DecidableEq P] in
/-- Every owned buffer particle with every halo buffer particle. -/
theorem bufferHalo_spec {pb hb : List (List P)} (h₁ : pb.flatten.Nodup) (h₂ : hb.flatten.Nodup) :
    (contributions (remBufferHaloBuffer pb hb)).Nodup ∧
      ∀ a b, (a, b) ∈ contributions (remBufferHaloBuffer pb hb) ↔ a ∈ pb.flatten ∧ b ∈ hb.flatten := by
  have hperm : (contributions (remBufferHaloBuffer pb hb)).Perm
      (pb.flatten.flatMap fun x => hb.flatten.map fun y => (x, y)) := by
    unfold remBufferHaloBuffer remBufferHaloBufferTask
    simp only [contributions_flatMap, contributions_pair]
    -- swap the loops
    refine (flatMap_swap_perm ..).trans ?_
    rw [← range_getD_flatMap pb]
    apply List.Perm.flatMap_left
    intro i _
    have := (range_rotate_perm hb.length i).flatMap_right
      (fun j => (pb.getD i []).flatMap fun x => (hb.getD j []).map fun y => (x, y))
    rw [List.flatMap_map] at this
    refine this.trans ?_
    refine (flatMap_swap_perm ..).trans ?_
    apply List.Perm.flatMap_left
    intro x _
    simp only [List.map_eq_flatMap]
    rw [range_getD_flatMap]
  refine ⟨hperm.nodup_iff.2 (nodup_cross h₁ h₂), fun a b => ?_⟩
  rw [hperm.mem_iff]
  simp

section container
variable (pos : P → V3 Rat) (own : P → Ownership)

omit [DecidableEq P] in
theorem mem_regionAround {cutoff : Rat} {cont : List P} {behavior : Nat} {c : V3 Rat} {p : P} :
    p ∈ regionAround pos own cutoff cont behavior c ↔ p ∈ cont ∧ fulfillsOwnership behavior (own p) = true ∧
      InBox (pos p) ⟨c.x - cutoff, c.y - cutoff, c.z - cutoff⟩ ⟨c.x + cutoff, c.y + cutoff, c.z + cutoff⟩ := by
  simp [regionAround, inBoxB, InBox, and_assoc]

theorem fulfills_ownedOrHalo (s : Ownership) : fulfillsOwnership ibOwnedOrHalo s = true ↔ s ≠ .dummy := by
  cases s <;> decide

theorem fulfills_ownedOrHaloSeq (s : Ownership) :
    fulfillsOwnership (ibOwnedOrHalo ||| ibForceSequential) s = true ↔ s ≠ .dummy := by
  cases s <;> decide

theorem fulfills_owned (s : Ownership) : fulfillsOwnership ibOwned s = true ↔ s = .owned := by
  cases s <;> decide

/-- Particles closer than the cutoff are in the search box. -/
theorem inBox_of_dist {c : Rat} (hc : 0 ≤ c) {p q : V3 Rat} (h : distSq p q < c * c) :
    InBox q ⟨p.x - c, p.y - c, p.z - c⟩ ⟨p.x + c, p.y + c, p.z + c⟩ := by
  have key : ∀ u v w1 w2 : Rat, (u - v) ^ 2 + w1 ^ 2 + w2 ^ 2 < c * c → u - c ≤ v ∧ v < u + c := by
    intro u v w1 w2 h
    have : |u - v| < c := by
      rw [← abs_of_nonneg hc]
      exact sq_lt_sq.1 (by nlinarith [sq_nonneg w1, sq_nonneg w2])
    rw [abs_lt] at this
    constructor <;> linarith
  unfold distSq at h
  refine ⟨key _ _ _ _ h, key _ _ (p.x - q.x) (p.z - q.z) (by linarith), key _ _ (p.x - q.x) (p.y - q.y) (by linarith)⟩

/-- Contributions of step 1 for the buffer particle `p1` and the container particle `p2`. -/
def step1Contr (newton3 : Bool) (p1 p2 : P) : List (P × P) :=
  (p1, p2) :: (if newton3 = true ∨ own p2 ≠ .halo then [(p2, p1)] else [])

/-- Contributions of step 2. -/
def step2Contr (newton3 : Bool) (p1 p2 : P) : List (P × P) := (p2, p1) :: (if newton3 then [(p1, p2)] else [])

omit [DecidableEq P] in
theorem bufferContainer_perm (newton3 : Bool) (cutoff : Rat) (cont : List P) {pb hb : List (List P)}
    (hlen : hb.length = pb.length) :
    (contributions (remBufferContainer pos own newton3 cutoff cont pb hb)).Perm
      ((pb.flatten.flatMap fun p1 =>
          (regionAround pos own cutoff cont ibOwnedOrHalo (pos p1)).flatMap fun p2 => step1Contr own newton3 p1 p2) ++
        (hb.flatten.flatMap fun p1 =>
          (regionAround pos own cutoff cont ibOwned (pos p1)).flatMap fun p2 => step2Contr newton3 p1 p2)) := by
  have e : contributions (remBufferContainer pos own newton3 cutoff cont pb hb) =
      (List.range pb.length).flatMap fun i =>
        ((pb.getD i []).flatMap fun p1 =>
          (regionAround pos own cutoff cont ibOwnedOrHalo (pos p1)).flatMap fun p2 => step1Contr own newton3 p1 p2) ++
        ((hb.getD i []).flatMap fun p1 =>
          (regionAround pos own cutoff cont ibOwned (pos p1)).flatMap fun p2 => step2Contr newton3 p1 p2) := by
    unfold remBufferContainer remBufferContainerTask
    rw [List.map_flatMap, contributions_flatMap]
    apply List.flatMap_congr
    intro i _
    rw [List.map_append, contributions_append]
    congr 1
    · rw [List.map_flatMap, contributions_flatMap]
      apply List.flatMap_congr
      intro p1 _
      rw [List.map_flatMap, contributions_flatMap]
      apply List.flatMap_congr
      intro p2 _
      unfold remStep1 step1Contr
      cases newton3
      · by_cases h : own p2 = .halo <;> simp [h, contributions]
      · simp [contributions]
    · rw [List.map_flatMap, contributions_flatMap]
      apply List.flatMap_congr
      intro p1 _
      rw [List.map_map, contributions, List.flatMap_map]
      rfl
  rw [e]
  refine (List.flatMap_append_perm _ _ _).symm.trans (List.Perm.of_eq ?_)
  rw [range_getD_flatMap, ← hlen, range_getD_flatMap]

/-- Contributions between a list of outside particles and container particles near them are distinct. -/
theorem outside_nodup {outs cont : List P} (hnd : outs.Nodup) (hcd : cont.Nodup) (hdis : ∀ p ∈ outs, p ∉ cont)
    (region : P → List P) (hr : ∀ p, (region p).Sublist cont) (f : P → P → List (P × P))
    (hf : ∀ p q, (f p q).Nodup ∨ p = q) (hm : ∀ p q t, t ∈ f p q → t = (p, q) ∨ t = (q, p)) :
    (outs.flatMap fun p => (region p).flatMap fun q => f p q).Nodup := by
  refine nodup_flatMap_key (fun t => if t.1 ∈ outs then t.1 else t.2) hnd ?_ ?_
  · intro p hp
    refine nodup_flatMap_key (fun t => if t.1 ∈ outs then t.2 else t.1) (hcd.sublist (hr p)) ?_ ?_
    · intro q hq
      rcases hf p q with h | h
      · exact h
      · exact absurd ((hr p).subset hq) (h ▸ hdis p hp)
    · intro q hq t ht
      have hqo : q ∉ outs := fun h => hdis q h ((hr p).subset hq)
      rcases hm p q t ht with rfl | rfl
      · simp [hp]
      · simp [hqo]
  · intro p hp t ht
    obtain ⟨q, hq, ht⟩ := List.mem_flatMap.1 ht
    have hqo : q ∉ outs := fun h => hdis q h ((hr p).subset hq)
    rcases hm p q t ht with rfl | rfl
    · simp [hp]
    · simp [hqo]

omit [DecidableEq P] in
theorem step1_mem {newton3 : Bool} {p q : P} {t : P × P} (h : t ∈ step1Contr own newton3 p q) :
    t = (p, q) ∨ t = (q, p) := by
  unfold step1Contr at h
  split_ifs at h <;> simp at h <;> tauto

omit [DecidableEq P] in
theorem step2_mem {newton3 : Bool} {p q : P} {t : P × P} (h : t ∈ step2Contr newton3 p q) : t = (p, q) ∨ t = (q, p) := by
  unfold step2Contr at h
  split_ifs at h <;> simp at h <;> tauto

theorem step1_nodup (newton3 : Bool) (p q : P) : (step1Contr own newton3 p q).Nodup ∨ p = q := by
  by_cases h : p = q
  · exact Or.inr h
  · left; unfold step1Contr; split_ifs <;> simp [h]

theorem step2_nodup (newton3 : Bool) (p q : P) : (step2Contr newton3 p q).Nodup ∨ p = q := by
  by_cases h : p = q
  · exact Or.inr h
  · left; unfold step2Contr; split_ifs <;> simp [Ne.symm h]

/-- The particles are pairwise different objects and there are as many halo buffers as particle buffers. -/
structure RemInput (cont : List P) (pb hb : List (List P)) : Prop where
  nodup : (cont ++ (pb.flatten ++ hb.flatten)).Nodup
  len : hb.length = pb.length

variable {pos own}

/-- Everything about the contributions of the two-body remainder traversal. -/
theorem remainder2B_spec {newton3 : Bool} {cutoff : Rat} {cont : List P} {pb hb : List (List P)}
    (h : RemInput cont pb hb) :
    (contributions (remainder2B pos own newton3 cutoff cont pb hb)).Nodup ∧
    ∀ a b, (a, b) ∈ contributions (remainder2B pos own newton3 cutoff cont pb hb) ↔
      (a ∈ pb.flatten ∧ b ∈ regionAround pos own cutoff cont ibOwnedOrHalo (pos a)) ∨
      (b ∈ pb.flatten ∧ a ∈ regionAround pos own cutoff cont ibOwnedOrHalo (pos b) ∧ (newton3 = true ∨ own a ≠ .halo)) ∨
      (b ∈ hb.flatten ∧ a ∈ regionAround pos own cutoff cont ibOwned (pos b)) ∨
      (newton3 = true ∧ a ∈ hb.flatten ∧ b ∈ regionAround pos own cutoff cont ibOwned (pos a)) ∨
      (a ∈ pb.flatten ∧ b ∈ pb.flatten ∧ a ≠ b) ∨ (a ∈ pb.flatten ∧ b ∈ hb.flatten) := by
  obtain ⟨rp, erp, lrp, prp, -⟩ := balanceVectorsFuel_spec 2 (Nat.le_refl 2) pb
  obtain ⟨rh, erh, lrh, prh, -⟩ := balanceVectorsFuel_spec 2 (Nat.le_refl 2) hb
  have ep : balanceVectors pb = rp := by rw [balanceVectors, erp]; rfl
  have eh : balanceVectors hb = rh := by rw [balanceVectors, erh]; rfl
  obtain ⟨hnd, hlen⟩ := h
  rw [List.nodup_append, List.nodup_append] at hnd
  obtain ⟨nc, ⟨np, nh, dph⟩, dc⟩ := hnd
  have np' : rp.flatten.Nodup := prp.nodup_iff.2 np
  have nh' : rh.flatten.Nodup := prh.nodup_iff.2 nh
  have mp : ∀ x, x ∈ rp.flatten ↔ x ∈ pb.flatten := fun x => prp.mem_iff
  have mh : ∀ x, x ∈ rh.flatten ↔ x ∈ hb.flatten := fun x => prh.mem_iff
  have dpc : ∀ p ∈ rp.flatten, p ∉ cont := fun p hp hc =>
    dc p hc p (List.mem_append.2 (Or.inl ((mp p).1 hp))) rfl
  have dhc : ∀ p ∈ rh.flatten, p ∉ cont := fun p hp hc =>
    dc p hc p (List.mem_append.2 (Or.inr ((mh p).1 hp))) rfl
  have dph' : ∀ p ∈ rp.flatten, p ∉ rh.flatten := fun p hp hc => dph p ((mp p).1 hp) p ((mh p).1 hc) rfl
  have hperm := bufferContainer_perm pos own newton3 cutoff cont (pb := rp) (hb := rh) (by omega)
  have hbb := bufferBuffer_spec np'
  have hbh := bufferHalo_spec np' nh'
  unfold remainder2B
  simp only [ep, eh, contributions_append]
  have hsub : ∀ b p, (regionAround pos own cutoff cont b p).Sublist cont := fun _ _ => List.filter_sublist
  -- members of the first part
  have mA : ∀ a b, (a, b) ∈ contributions (remBufferContainer pos own newton3 cutoff cont rp rh) ↔
      (a ∈ rp.flatten ∧ b ∈ regionAround pos own cutoff cont ibOwnedOrHalo (pos a)) ∨
      (b ∈ rp.flatten ∧ a ∈ regionAround pos own cutoff cont ibOwnedOrHalo (pos b) ∧ (newton3 = true ∨ own a ≠ .halo)) ∨
      (b ∈ rh.flatten ∧ a ∈ regionAround pos own cutoff cont ibOwned (pos b)) ∨
      (newton3 = true ∧ a ∈ rh.flatten ∧ b ∈ regionAround pos own cutoff cont ibOwned (pos a)) := by
    intro a b
    rw [hperm.mem_iff, List.mem_append]
    constructor
    · rintro (hm | hm)
      · obtain ⟨p, hp, hm⟩ := List.mem_flatMap.1 hm
        obtain ⟨q, hq, hm⟩ := List.mem_flatMap.1 hm
        unfold step1Contr at hm
        split_ifs at hm with hc
        · simp only [List.mem_cons, Prod.mk.injEq, List.not_mem_nil, or_false] at hm
          rcases hm with ⟨rfl, rfl⟩ | ⟨rfl, rfl⟩
          · exact Or.inl ⟨hp, hq⟩
          · exact Or.inr (Or.inl ⟨hp, hq, hc⟩)
        · simp only [List.mem_cons, Prod.mk.injEq, List.not_mem_nil, or_false] at hm
          obtain ⟨rfl, rfl⟩ := hm
          exact Or.inl ⟨hp, hq⟩
      · obtain ⟨p, hp, hm⟩ := List.mem_flatMap.1 hm
        obtain ⟨q, hq, hm⟩ := List.mem_flatMap.1 hm
        unfold step2Contr at hm
        split_ifs at hm with hc
        · simp only [List.mem_cons, Prod.mk.injEq, List.not_mem_nil, or_false] at hm
          rcases hm with ⟨rfl, rfl⟩ | ⟨rfl, rfl⟩
          · exact Or.inr (Or.inr (Or.inl ⟨hp, hq⟩))
          · exact Or.inr (Or.inr (Or.inr ⟨hc, hp, hq⟩))
        · simp only [List.mem_cons, Prod.mk.injEq, List.not_mem_nil, or_false] at hm
          obtain ⟨rfl, rfl⟩ := hm
          exact Or.inr (Or.inr (Or.inl ⟨hp, hq⟩))
    · rintro (⟨hp, hq⟩ | ⟨hp, hq, hc⟩ | ⟨hp, hq⟩ | ⟨hc, hp, hq⟩)
      · exact Or.inl (List.mem_flatMap.2 ⟨a, hp, List.mem_flatMap.2 ⟨b, hq, by simp [step1Contr]⟩⟩)
      · exact Or.inl (List.mem_flatMap.2 ⟨b, hp, List.mem_flatMap.2 ⟨a, hq, by simp [step1Contr, hc]⟩⟩)
      · exact Or.inr (List.mem_flatMap.2 ⟨b, hp, List.mem_flatMap.2 ⟨a, hq, by simp [step2Contr]⟩⟩)
      · exact Or.inr (List.mem_flatMap.2 ⟨a, hp, List.mem_flatMap.2 ⟨b, hq, by simp [step2Contr, hc]⟩⟩)
  have nA : (contributions (remBufferContainer pos own newton3 cutoff cont rp rh)).Nodup := by
    rw [hperm.nodup_iff, List.nodup_append]
    refine ⟨?_, ?_, ?_⟩
    · exact outside_nodup np' nc dpc (fun p => regionAround pos own cutoff cont ibOwnedOrHalo (pos p))
        (fun p => hsub _ _) (step1Contr own newton3) (fun p q => step1_nodup own newton3 p q)
        (fun p q t ht => step1_mem own ht)
    · exact outside_nodup nh' nc dhc (fun p => regionAround pos own cutoff cont ibOwned (pos p))
        (fun p => hsub _ _) (step2Contr newton3) (fun p q => step2_nodup newton3 p q) (fun p q t ht => step2_mem ht)
    · intro t ht s hs e
      subst e
      obtain ⟨p, hp, ht⟩ := List.mem_flatMap.1 ht
      obtain ⟨q, hq, ht⟩ := List.mem_flatMap.1 ht
      obtain ⟨p', hp', hs⟩ := List.mem_flatMap.1 hs
      obtain ⟨q', hq', hs⟩ := List.mem_flatMap.1 hs
      have hqc := (hsub _ _).subset hq
      have hqc' := (hsub _ _).subset hq'
      rcases step1_mem own ht with e1 | e1 <;> rcases step2_mem hs with e2 | e2 <;>
        · have e3 := e1.symm.trans e2
          rw [Prod.mk.injEq] at e3
          obtain ⟨e4, e5⟩ := e3
          subst e4
          subst e5
          first
          | exact dph' _ hp hp'
          | exact dpc _ hp hqc'
  -- receivers and sources of the other parts are buffer particles
  refine ⟨?_, ?_⟩
  · rw [List.nodup_append, List.nodup_append]
    refine ⟨⟨nA, hbb.1, ?_⟩, hbh.1, ?_⟩
    · rintro ⟨a, b⟩ ht s hs e
      subst e
      have h2 := (hbb.2 a b).1 hs
      have da := dpc _ h2.1
      have db := dpc _ h2.2.1
      rcases (mA a b).1 ht with h1 | h1 | h1 | h1
      · exact db ((hsub _ _).subset h1.2)
      · exact da ((hsub _ _).subset h1.2.1)
      · exact da ((hsub _ _).subset h1.2)
      · exact db ((hsub _ _).subset h1.2.2)
    · rintro ⟨a, b⟩ ht s hs e
      subst e
      have h2 := (hbh.2 a b).1 hs
      have da := dpc _ h2.1
      have db := dhc _ h2.2
      rcases List.mem_append.1 ht with ht | ht
      · rcases (mA a b).1 ht with h1 | h1 | h1 | h1
        · exact db ((hsub _ _).subset h1.2)
        · exact da ((hsub _ _).subset h1.2.1)
        · exact da ((hsub _ _).subset h1.2)
        · exact db ((hsub _ _).subset h1.2.2)
      · exact dph' _ ((hbb.2 a b).1 ht).2.1 h2.2
  · intro a b
    rw [List.mem_append, List.mem_append, mA, hbb.2, hbh.2]
    simp only [mp, mh, or_assoc]

end container

end Verif
