import Verif.Lemmas.Remainder
/-! Contributions of the three-body remainder traversal. -/
namespace Verif
open Spec

theorem countP_flatMap_zero {α β : Type} {f : α → List β} {p : β → Bool} {l : List α}
    (h : ∀ x ∈ l, (f x).countP p = 0) : (l.flatMap f).countP p = 0 := by
  rw [List.countP_eq_zero]
  intro t ht
  obtain ⟨x, hx, ht⟩ := List.mem_flatMap.1 ht
  exact List.countP_eq_zero.1 (h x hx) t ht

/-- Only one element of a duplicate-free list contributes. -/
theorem countP_flatMap_unique {α β : Type} {f : α → List β} {p : β → Bool} {l : List α} (hnd : l.Nodup) {x : α}
    (hx : x ∈ l) (h : ∀ y ∈ l, y ≠ x → (f y).countP p = 0) : (l.flatMap f).countP p = (f x).countP p := by
  induction l with
  | nil => cases hx
  | cons z l ih =>
    rw [List.nodup_cons] at hnd
    rw [List.flatMap_cons, List.countP_append]
    rcases List.mem_cons.1 hx with rfl | hx
    · rw [countP_flatMap_zero, Nat.add_zero]
      intro y hy
      exact h y (by simp [hy]) (fun e => hnd.1 (e ▸ hy))
    · rw [ih hnd.2 hx (fun y hy => h y (by simp [hy])), h z (by simp) (fun e => hnd.1 (e ▸ hx)), Nat.zero_add]

variable {P : Type} [DecidableEq P]

theorem timesReceived3_append (l₁ l₂ : List (TripleCall P)) (a b c : P) :
    timesReceived3 (l₁ ++ l₂) a b c = timesReceived3 l₁ a b c + timesReceived3 l₂ a b c := by
  simp [timesReceived3, contributions3]

theorem timesReceived3_comm (l : List (TripleCall P)) (a b c : P) :
    timesReceived3 l a b c = timesReceived3 l a c b := by
  unfold timesReceived3
  apply List.countP_congr
  intro t _
  simp only [decide_eq_true_eq]
  tauto

/-- Without Newton 3 only the first particle receives. -/
theorem timesReceived3_noN3 {l : List (TripleCall P)} (h : ∀ t ∈ l, t.newton3 = false) (a b c : P) :
    timesReceived3 l a b c = timesTripleFirst l a b c := by
  unfold timesReceived3 contributions3 timesTripleFirst
  apply countP_flatMap_indicator
  intro t ht
  rw [h t ht]
  simp [List.countP_cons]

theorem getElem?_inj_of_nodup {l : List P} (hnd : l.Nodup) {i j : Nat} {a : P} (hi : l[i]? = some a)
    (hj : l[j]? = some a) : i = j := by
  obtain ⟨h1, h2⟩ := List.getElem?_eq_some_iff.1 hi
  obtain ⟨h3, h4⟩ := List.getElem?_eq_some_iff.1 hj
  exact (List.Nodup.getElem_inj_iff hnd).1 (h2.trans h4.symm)

theorem exists_idx {l : List P} {a : P} (h : a ∈ l) : ∃ i, i < l.length ∧ l[i]? = some a := by
  obtain ⟨i, hi, rfl⟩ := List.getElem_of_mem h
  exact ⟨i, hi, List.getElem?_eq_getElem hi⟩

/-- Step 1, calls of iteration `(i, j, k)`. -/
def rem3Innermost (buf : List P) (i j k : Nat) : List (TripleCall P) :=
  match buf[i]?, buf[j]?, buf[k]? with
  | some p1, some p2, some p3 => [⟨p1, p2, p3, false⟩]
  | _, _, _ => []

omit [DecidableEq P] in
theorem mem_rem3Innermost {buf : List P} {i j k : Nat} {t : TripleCall P} (h : t ∈ rem3Innermost buf i j k) :
    buf[i]? = some t.p ∧ buf[j]? = some t.q ∧ buf[k]? = some t.r ∧ t.newton3 = false := by
  unfold rem3Innermost at h
  split at h
  · rename_i p1 p2 p3 h1 h2 h3
    simp only [List.mem_cons, List.not_mem_nil, or_false] at h
    subst h
    exact ⟨h1, h2, h3, rfl⟩
  · cases h

omit [DecidableEq P] in
theorem rem3BBB_eq (nOwned : Nat) (buf : List P) : rem3BufferBufferBuffer nOwned buf =
    (List.range nOwned).flatMap fun i => (List.range buf.length).flatMap fun j =>
      if i = j then [] else
        (List.range buf.length).flatMap fun k =>
          if k < j + 1 then [] else if k = i then [] else rem3Innermost buf i j k := rfl

omit [DecidableEq P] in
theorem mem_rem3BBB {nOwned : Nat} {buf : List P} {t : TripleCall P} (h : t ∈ rem3BufferBufferBuffer nOwned buf) :
    t.p ∈ buf ∧ t.q ∈ buf ∧ t.r ∈ buf ∧ t.newton3 = false := by
  rw [rem3BBB_eq] at h
  obtain ⟨i, _, h⟩ := List.mem_flatMap.1 h
  obtain ⟨j, _, h⟩ := List.mem_flatMap.1 h
  split_ifs at h
  · cases h
  obtain ⟨k, _, h⟩ := List.mem_flatMap.1 h
  split_ifs at h
  · cases h
  · cases h
  · obtain ⟨h1, h2, h3, h4⟩ := mem_rem3Innermost h
    exact ⟨List.mem_of_getElem? h1, List.mem_of_getElem? h2, List.mem_of_getElem? h3, h4⟩

/-- Step 1: an owned buffer particle receives once from each two other buffer particles. -/
theorem rem3BBB_count {nOwned : Nat} {buf : List P} (hnd : buf.Nodup) {a b c : P} {i j k : Nat}
    (ha : buf[i]? = some a) (hb : buf[j]? = some b) (hc : buf[k]? = some c) (hij : i ≠ j) (hik : i ≠ k) (hjk : j ≠ k) :
    timesReceived3 (rem3BufferBufferBuffer nOwned buf) a b c = if i < nOwned then 1 else 0 := by
  wlog hlt : j < k generalizing j k b c
  · rw [timesReceived3_comm]
    exact this hc hb hik hij (Ne.symm hjk) (by omega)
  rw [timesReceived3_noN3 (fun t ht => (mem_rem3BBB ht).2.2.2)]
  unfold timesTripleFirst
  rw [rem3BBB_eq]
  have hjl := (List.getElem?_eq_some_iff.1 hb).1
  have hkl := (List.getElem?_eq_some_iff.1 hc).1
  have hmem : ∀ i' j' k', j' < k' → 0 < (rem3Innermost buf i' j' k').countP
      (fun t => decide (t.p = a ∧ ((t.q = b ∧ t.r = c) ∨ (t.q = c ∧ t.r = b)))) → i' = i ∧ j' = j ∧ k' = k := by
    intro i' j' k' hjk' hpos
    rw [List.countP_pos_iff] at hpos
    obtain ⟨t, ht, hp⟩ := hpos
    obtain ⟨h1, h2, h3, -⟩ := mem_rem3Innermost ht
    simp only [decide_eq_true_eq] at hp
    obtain ⟨rfl, ⟨rfl, rfl⟩ | ⟨rfl, rfl⟩⟩ := hp
    · exact ⟨getElem?_inj_of_nodup hnd h1 ha, getElem?_inj_of_nodup hnd h2 hb, getElem?_inj_of_nodup hnd h3 hc⟩
    · have e1 := getElem?_inj_of_nodup hnd h2 hc
      have e2 := getElem?_inj_of_nodup hnd h3 hb
      omega
  have hz : ∀ i' j' k', j' < k' → ¬(i' = i ∧ j' = j ∧ k' = k) → (rem3Innermost buf i' j' k').countP
      (fun t => decide (t.p = a ∧ ((t.q = b ∧ t.r = c) ∨ (t.q = c ∧ t.r = b)))) = 0 := by
    intro i' j' k' h1 h2
    by_contra hne
    exact h2 (hmem i' j' k' h1 (Nat.pos_of_ne_zero hne))
  split_ifs with hi
  · rw [countP_flatMap_unique List.nodup_range (List.mem_range.2 hi),
      countP_flatMap_unique List.nodup_range (List.mem_range.2 hjl), if_neg hij,
      countP_flatMap_unique List.nodup_range (List.mem_range.2 hkl), if_neg (by omega), if_neg (by omega)]
    · simp [rem3Innermost, ha, hb, hc]
    · intro k' _ hk'
      split_ifs
      · rfl
      · rfl
      · exact hz _ _ _ (by omega) (by omega)
    · intro j' _ hj'
      split_ifs
      · rfl
      · apply countP_flatMap_zero
        intro k' _
        split_ifs
        · rfl
        · rfl
        · exact hz _ _ _ (by omega) (by omega)
    · intro i' _ hi'
      apply countP_flatMap_zero
      intro j' _
      split_ifs
      · rfl
      · apply countP_flatMap_zero
        intro k' _
        split_ifs
        · rfl
        · rfl
        · exact hz _ _ _ (by omega) (by omega)
  · apply countP_flatMap_zero
    intro i' hi'
    rw [List.mem_range] at hi'
    apply countP_flatMap_zero
    intro j' _
    split_ifs
    · rfl
    · apply countP_flatMap_zero
      intro k' _
      split_ifs
      · rfl
      · rfl
      · exact hz _ _ _ (by omega) (by omega)

section
variable (pos : P → V3 Rat) (own : P → Ownership)

/-- Step 2, calls for one container particle. -/
def rem3Lambda (nOwned i j : Nat) (p1 p2 p3 : P) : List (TripleCall P) :=
  (if i < nOwned then [⟨p1, p2, p3, false⟩] else []) ++ (if own p3 ≠ .halo ∧ i < j then [⟨p3, p1, p2, false⟩] else [])

/-- Step 2, calls of iteration `(i, j)`. -/
def rem3Pair (nOwned : Nat) (buf : List P) (cutoff : Rat) (cont : List P) (i j : Nat) : List (TripleCall P) :=
  match buf[i]?, buf[j]? with
  | some p1, some p2 =>
    (regionAround pos own cutoff cont ibOwnedOrHalo (pos p1)).flatMap fun p3 => rem3Lambda own nOwned i j p1 p2 p3
  | _, _ => []

omit [DecidableEq P] in
theorem rem3BBC_eq (nOwned : Nat) (buf : List P) (cutoff : Rat) (cont : List P) :
    rem3BufferBufferContainer pos own nOwned buf cutoff cont =
      (List.range buf.length).flatMap fun i => (List.range buf.length).flatMap fun j =>
        if j = i then [] else rem3Pair pos own nOwned buf cutoff cont i j := rfl

omit [DecidableEq P] in
theorem mem_rem3Pair {nOwned : Nat} {buf : List P} {cutoff : Rat} {cont : List P} {i j : Nat} {t : TripleCall P}
    (h : t ∈ rem3Pair pos own nOwned buf cutoff cont i j) :
    t.newton3 = false ∧
      ((buf[i]? = some t.p ∧ buf[j]? = some t.q ∧ t.r ∈ cont) ∨
        (buf[i]? = some t.q ∧ buf[j]? = some t.r ∧ t.p ∈ cont ∧ i < j)) := by
  unfold rem3Pair at h
  split at h
  · rename_i p1 p2 h1 h2
    obtain ⟨p3, h3, h⟩ := List.mem_flatMap.1 h
    have hc := ((mem_regionAround pos own).1 h3).1
    simp only [rem3Lambda, List.mem_append] at h
    rcases h with h | h
    · split_ifs at h
      · simp only [List.mem_cons, List.not_mem_nil, or_false] at h
        subst h
        exact ⟨rfl, Or.inl ⟨h1, h2, hc⟩⟩
      · cases h
    · split_ifs at h with hh
      · simp only [List.mem_cons, List.not_mem_nil, or_false] at h
        subst h
        exact ⟨rfl, Or.inr ⟨h1, h2, hc, hh.2⟩⟩
      · cases h
  · cases h

omit [DecidableEq P] in
theorem mem_rem3BBC {nOwned : Nat} {buf : List P} {cutoff : Rat} {cont : List P} {t : TripleCall P}
    (h : t ∈ rem3BufferBufferContainer pos own nOwned buf cutoff cont) :
    t.newton3 = false ∧
      ((t.p ∈ buf ∧ t.q ∈ buf ∧ t.r ∈ cont) ∨ (t.q ∈ buf ∧ t.r ∈ buf ∧ t.p ∈ cont)) := by
  rw [rem3BBC_eq] at h
  obtain ⟨i, _, h⟩ := List.mem_flatMap.1 h
  obtain ⟨j, _, h⟩ := List.mem_flatMap.1 h
  split_ifs at h
  · cases h
  obtain ⟨h0, h1 | h1⟩ := mem_rem3Pair pos own h
  · exact ⟨h0, Or.inl ⟨List.mem_of_getElem? h1.1, List.mem_of_getElem? h1.2.1, h1.2.2⟩⟩
  · exact ⟨h0, Or.inr ⟨List.mem_of_getElem? h1.1, List.mem_of_getElem? h1.2.1, h1.2.2.1⟩⟩

variable {nOwned : Nat} {buf : List P} {cutoff : Rat} {cont : List P}

theorem mem_indicator_sum {l : List P} (hnd : l.Nodup) (c : P) (f : P → List (TripleCall P)) (p : TripleCall P → Bool)
    (n : Nat) (h1 : c ∈ l → (f c).countP p = n) (h0 : ∀ x ∈ l, x ≠ c → (f x).countP p = 0) :
    (l.flatMap f).countP p = if c ∈ l then n else 0 := by
  split_ifs with hc
  · rw [countP_flatMap_unique hnd hc h0, h1 hc]
  · exact countP_flatMap_zero (fun x hx => h0 x hx (fun e => hc (e ▸ hx)))

/-- Step 2, receiver in a buffer. -/
theorem rem3BBC_count_buffer (hnd : buf.Nodup) (hcd : cont.Nodup) (hdis : ∀ p ∈ buf, p ∉ cont) {a b c : P} {i j : Nat}
    (ha : buf[i]? = some a) (hb : buf[j]? = some b) (hc : c ∈ cont) (hij : i ≠ j) :
    timesReceived3 (rem3BufferBufferContainer pos own nOwned buf cutoff cont) a b c =
      if c ∈ regionAround pos own cutoff cont ibOwnedOrHalo (pos a) then (if i < nOwned then 1 else 0) else 0 := by
  rw [timesReceived3_noN3 (fun t ht => (mem_rem3BBC pos own ht).1)]
  unfold timesTripleFirst
  rw [rem3BBC_eq]
  have hil := (List.getElem?_eq_some_iff.1 ha).1
  have hjl := (List.getElem?_eq_some_iff.1 hb).1
  have hab : a ∈ buf := List.mem_of_getElem? ha
  have hbb : b ∈ buf := List.mem_of_getElem? hb
  have hz : ∀ i' j', ¬(i' = i ∧ j' = j) → (rem3Pair pos own nOwned buf cutoff cont i' j').countP
      (fun t => decide (t.p = a ∧ ((t.q = b ∧ t.r = c) ∨ (t.q = c ∧ t.r = b)))) = 0 := by
    intro i' j' hne
    rw [List.countP_eq_zero]
    intro t ht hp
    simp only [decide_eq_true_eq] at hp
    obtain ⟨-, ⟨h1, h2, h3⟩ | ⟨h1, h2, h3, -⟩⟩ := mem_rem3Pair pos own ht
    · obtain ⟨rfl, ⟨rfl, rfl⟩ | ⟨rfl, rfl⟩⟩ := hp
      · exact hne ⟨getElem?_inj_of_nodup hnd h1 ha, getElem?_inj_of_nodup hnd h2 hb⟩
      · exact hdis _ hbb h3
    · obtain ⟨rfl, -⟩ := hp
      exact hdis _ hab h3
  rw [countP_flatMap_unique List.nodup_range (List.mem_range.2 hil),
    countP_flatMap_unique List.nodup_range (List.mem_range.2 hjl), if_neg (Ne.symm hij)]
  · simp only [rem3Pair, ha, hb]
    have hbc : b ≠ c := fun e => hdis _ hbb (e ▸ hc)
    have hac : a ≠ c := fun e => hdis _ hab (e ▸ hc)
    apply mem_indicator_sum (hcd.sublist List.filter_sublist)
    · intro _
      unfold rem3Lambda
      rw [List.countP_append]
      split_ifs <;> simp [Ne.symm hac]
    · intro x hx hxc
      have hxcont := ((mem_regionAround pos own).1 hx).1
      have hax : a ≠ x := fun e => hdis _ hab (e ▸ hxcont)
      unfold rem3Lambda
      rw [List.countP_append]
      split_ifs <;> simp [hxc, Ne.symm hax, hbc]
  · intro j' _ hj'
    split_ifs
    · rfl
    · exact hz _ _ (fun h => hj' h.2)
  · intro i' _ hi'
    apply countP_flatMap_zero
    intro j' _
    split_ifs
    · rfl
    · exact hz _ _ (fun h => hi' h.1)

/-- Step 2, receiver in the container. -/
theorem rem3BBC_count_container (hnd : buf.Nodup) (hcd : cont.Nodup) (hdis : ∀ p ∈ buf, p ∉ cont) {a b c : P} {i j : Nat}
    (ha : a ∈ cont) (hb : buf[i]? = some b) (hc : buf[j]? = some c) (hij : i < j) :
    timesReceived3 (rem3BufferBufferContainer pos own nOwned buf cutoff cont) a b c =
      if a ∈ regionAround pos own cutoff cont ibOwnedOrHalo (pos b) then (if own a ≠ .halo then 1 else 0) else 0 := by
  rw [timesReceived3_noN3 (fun t ht => (mem_rem3BBC pos own ht).1)]
  unfold timesTripleFirst
  rw [rem3BBC_eq]
  have hil := (List.getElem?_eq_some_iff.1 hb).1
  have hjl := (List.getElem?_eq_some_iff.1 hc).1
  have hbb : b ∈ buf := List.mem_of_getElem? hb
  have hcb : c ∈ buf := List.mem_of_getElem? hc
  have hz : ∀ i' j', ¬(i' = i ∧ j' = j) → (rem3Pair pos own nOwned buf cutoff cont i' j').countP
      (fun t => decide (t.p = a ∧ ((t.q = b ∧ t.r = c) ∨ (t.q = c ∧ t.r = b)))) = 0 := by
    intro i' j' hne
    rw [List.countP_eq_zero]
    intro t ht hp
    simp only [decide_eq_true_eq] at hp
    obtain ⟨-, ⟨h1, h2, h3⟩ | ⟨h1, h2, h3, hlt⟩⟩ := mem_rem3Pair pos own ht
    · obtain ⟨rfl, -⟩ := hp
      exact hdis _ (List.mem_of_getElem? h1) ha
    · obtain ⟨rfl, ⟨rfl, rfl⟩ | ⟨rfl, rfl⟩⟩ := hp
      · exact hne ⟨getElem?_inj_of_nodup hnd h1 hb, getElem?_inj_of_nodup hnd h2 hc⟩
      · have e1 := getElem?_inj_of_nodup hnd h1 hc
        have e2 := getElem?_inj_of_nodup hnd h2 hb
        omega
  rw [countP_flatMap_unique List.nodup_range (List.mem_range.2 hil),
    countP_flatMap_unique List.nodup_range (List.mem_range.2 hjl), if_neg (by omega)]
  · simp only [rem3Pair, hb, hc]
    have hab : a ≠ b := fun e => hdis _ hbb (e ▸ ha)
    apply mem_indicator_sum (hcd.sublist List.filter_sublist)
    · intro _
      unfold rem3Lambda
      rw [List.countP_append]
      split_ifs <;> simp_all [Ne.symm hab]
    · intro x hx hxa
      unfold rem3Lambda
      rw [List.countP_append]
      split_ifs <;> simp [hxa, Ne.symm hab]
  · intro j' _ hj'
    split_ifs
    · rfl
    · exact hz _ _ (fun h => hj' h.2)
  · intro i' _ hi'
    apply countP_flatMap_zero
    intro j' _
    split_ifs
    · rfl
    · exact hz _ _ (fun h => hi' h.1)

/-- Step 3, calls for one pair of container particles. -/
def rem3Inner (newton3 : Bool) (nOwned i : Nat) (p1 p2 p3 : P) : List (TripleCall P) :=
  if newton3 then [⟨p1, p2, p3, true⟩]
  else
    (if i < nOwned then [⟨p1, p2, p3, false⟩] else []) ++
      (if own p2 = .owned then [⟨p2, p1, p3, false⟩] else []) ++ (if own p3 = .owned then [⟨p3, p1, p2, false⟩] else [])

/-- Step 3, calls of iteration `i`. -/
def rem3Single (newton3 : Bool) (nOwned : Nat) (buf : List P) (cutoff : Rat) (cont : List P) (i : Nat) :
    List (TripleCall P) :=
  match buf[i]? with
  | some p1 =>
    (pairLoop (fun _ _ => false)
      (regionAround pos own cutoff cont (ibOwnedOrHalo ||| ibForceSequential) (pos p1))).flatMap fun t =>
      rem3Inner own newton3 nOwned i p1 t.1 t.2
  | none => []

omit [DecidableEq P] in
theorem rem3BCC_eq (newton3 : Bool) : rem3BufferContainerContainer pos own newton3 nOwned buf cutoff cont =
    (List.range buf.length).flatMap fun i => rem3Single pos own newton3 nOwned buf cutoff cont i := rfl

omit [DecidableEq P] in
theorem mem_rem3Inner {newton3 : Bool} {i : Nat} {p1 p2 p3 : P} {t : P × P × P}
    (h : t ∈ contributions3 (rem3Inner own newton3 nOwned i p1 p2 p3)) :
    t = (p1, p2, p3) ∨ t = (p2, p1, p3) ∨ t = (p3, p1, p2) := by
  unfold rem3Inner at h
  cases newton3
  · simp only [contributions3, List.mem_flatMap, Bool.false_eq_true, if_false, List.mem_append] at h
    obtain ⟨c, (h | h) | h, ht⟩ := h <;> split_ifs at h <;> simp at h <;> subst h <;> simp at ht <;> tauto
  · simp [contributions3] at h
    tauto

omit [DecidableEq P] in
theorem contributions3_flatMap {α : Type} (l : List α) (f : α → List (TripleCall P)) :
    contributions3 (l.flatMap f) = l.flatMap fun x => contributions3 (f x) := by
  simp [contributions3, List.flatMap_assoc]

/-- Contributions of step 3 involve exactly one buffer particle. -/
theorem mem_rem3BCC {newton3 : Bool} {t : P × P × P}
    (h : t ∈ contributions3 (rem3BufferContainerContainer pos own newton3 nOwned buf cutoff cont)) :
    (t.1 ∈ buf ∧ t.2.1 ∈ cont ∧ t.2.2 ∈ cont) ∨ (t.1 ∈ cont ∧ t.2.1 ∈ buf ∧ t.2.2 ∈ cont) := by
  rw [rem3BCC_eq, contributions3_flatMap] at h
  obtain ⟨i, _, h⟩ := List.mem_flatMap.1 h
  unfold rem3Single at h
  split at h
  · rename_i p1 h1
    rw [contributions3_flatMap] at h
    obtain ⟨u, hu, h⟩ := List.mem_flatMap.1 h
    have hm := mem_pairLoop hu
    have c1 := ((mem_regionAround pos own).1 hm.1).1
    have c2 := ((mem_regionAround pos own).1 hm.2).1
    have hb := List.mem_of_getElem? h1
    rcases mem_rem3Inner own h with rfl | rfl | rfl
    · exact Or.inl ⟨hb, c1, c2⟩
    · exact Or.inr ⟨c1, hb, c2⟩
    · exact Or.inr ⟨c2, hb, c1⟩
  · cases h

variable (newton3 : Bool)

theorem rem3BCC_unique (hnd : buf.Nodup) (hdis : ∀ p ∈ buf, p ∉ cont) {a b c x : P} {i : Nat} (hx : buf[i]? = some x)
    (hax : (a = x ∧ b ∈ cont ∧ c ∈ cont) ∨ (b = x ∧ a ∈ cont ∧ c ∈ cont)) :
    timesReceived3 (rem3BufferContainerContainer pos own newton3 nOwned buf cutoff cont) a b c =
      timesReceived3 (rem3Single pos own newton3 nOwned buf cutoff cont i) a b c := by
  unfold timesReceived3
  rw [rem3BCC_eq, contributions3_flatMap]
  have hil := (List.getElem?_eq_some_iff.1 hx).1
  apply countP_flatMap_unique List.nodup_range (List.mem_range.2 hil)
  intro i' _ hne
  rw [List.countP_eq_zero]
  intro t ht hp
  simp only [decide_eq_true_eq] at hp
  unfold rem3Single at ht
  split at ht
  · rename_i p1 h1
    rw [contributions3_flatMap] at ht
    obtain ⟨u, hu, ht⟩ := List.mem_flatMap.1 ht
    have hm := mem_pairLoop hu
    have c1 := ((mem_regionAround pos own).1 hm.1).1
    have c2 := ((mem_regionAround pos own).1 hm.2).1
    have hxp : x ≠ p1 := fun e => hne (getElem?_inj_of_nodup hnd (e ▸ h1) hx)
    have hxb := List.mem_of_getElem? hx
    have hpb := List.mem_of_getElem? h1
    have hx1 : x ≠ u.1 := fun e => hdis _ hxb (e ▸ c1)
    have hx2 : x ≠ u.2 := fun e => hdis _ hxb (e ▸ c2)
    rcases mem_rem3Inner own ht with rfl | rfl | rfl <;> rcases hax with ⟨rfl, hb, hc⟩ | ⟨rfl, ha, hc⟩ <;>
      (obtain ⟨e1, ⟨e2, e3⟩ | ⟨e2, e3⟩⟩ := hp <;> simp only at e1 e2 e3 <;> simp_all)
  · cases ht

theorem isPair_comm' (x y : P) : isPair id x y = isPair (id : P → P) y x := isPair_comm id x y

/-- Step 3, receiver in a buffer. -/
theorem rem3BCC_count_buffer (hnd : buf.Nodup) (hcd : cont.Nodup) (hdis : ∀ p ∈ buf, p ∉ cont) {a b c : P} {i : Nat}
    (ha : buf[i]? = some a) (hb : b ∈ cont) (hc : c ∈ cont) (hbc : b ≠ c) :
    timesReceived3 (rem3BufferContainerContainer pos own newton3 nOwned buf cutoff cont) a b c =
      if newton3 = true ∨ i < nOwned then
        (pairLoop (fun _ _ => false)
          (regionAround pos own cutoff cont (ibOwnedOrHalo ||| ibForceSequential) (pos a))).countP (isPair id b c)
      else 0 := by
  rw [rem3BCC_unique pos own newton3 hnd hdis ha (Or.inl ⟨rfl, hb, hc⟩)]
  have hab := List.mem_of_getElem? ha
  unfold timesReceived3
  simp only [rem3Single, ha, contributions3_flatMap]
  have hne : ∀ x ∈ cont, x ≠ a := fun x hx e => hdis _ hab (e ▸ hx)
  split_ifs with hn
  · apply countP_flatMap_indicator
    intro u hu
    have hm := mem_pairLoop hu
    have c1 := hne _ ((mem_regionAround pos own).1 hm.1).1
    have c2 := hne _ ((mem_regionAround pos own).1 hm.2).1
    unfold rem3Inner
    cases newton3
    · have hi : i < nOwned := by simpa using hn
      simp only [Bool.false_eq_true, if_false, hi, if_true]
      split_ifs <;> simp_all [contributions3, isPair, List.countP_cons]
    · simp_all [contributions3, isPair, List.countP_cons]
  · apply countP_flatMap_zero
    intro u hu
    have hm := mem_pairLoop hu
    have c1 := hne _ ((mem_regionAround pos own).1 hm.1).1
    have c2 := hne _ ((mem_regionAround pos own).1 hm.2).1
    unfold rem3Inner
    cases newton3
    · have hi : ¬ i < nOwned := by simpa using hn
      simp only [Bool.false_eq_true, if_false, hi]
      split_ifs <;> simp_all [contributions3, List.countP_cons]
    · simp at hn

set_option maxHeartbeats 1000000 in
/-- Step 3, receiver in the container. -/
theorem rem3BCC_count_container (hnd : buf.Nodup) (hcd : cont.Nodup) (hdis : ∀ p ∈ buf, p ∉ cont) {a b c : P} {i : Nat}
    (ha : a ∈ cont) (hb : buf[i]? = some b) (hc : c ∈ cont) (hac : a ≠ c) :
    timesReceived3 (rem3BufferContainerContainer pos own newton3 nOwned buf cutoff cont) a b c =
      if newton3 = true ∨ own a = .owned then
        (pairLoop (fun _ _ => false)
          (regionAround pos own cutoff cont (ibOwnedOrHalo ||| ibForceSequential) (pos b))).countP (isPair id a c)
      else 0 := by
  rw [rem3BCC_unique pos own newton3 hnd hdis hb (Or.inr ⟨rfl, ha, hc⟩)]
  have hbb := List.mem_of_getElem? hb
  unfold timesReceived3
  simp only [rem3Single, hb, contributions3_flatMap]
  have hne : ∀ x ∈ cont, x ≠ b := fun x hx e => hdis _ hbb (e ▸ hx)
  have hnd' : (regionAround pos own cutoff cont (ibOwnedOrHalo ||| ibForceSequential) (pos b)).Nodup :=
    hcd.sublist List.filter_sublist
  have nab := hne a ha
  have ncb := hne c hc
  split_ifs with hn
  · apply countP_flatMap_indicator
    intro u hu
    have hm := mem_pairLoop hu
    have hu12 : u.1 ≠ u.2 := pairLoop_ne (get := id) (by simpa using hnd') hu
    have c1 := hne _ ((mem_regionAround pos own).1 hm.1).1
    have c2 := hne _ ((mem_regionAround pos own).1 hm.2).1
    unfold rem3Inner
    by_cases e1 : u.1 = a
    · have : own u.1 = own a := by rw [e1]
      have hu2 : u.2 ≠ a := fun e => hu12 (e1.trans e.symm)
      cases newton3 <;> by_cases e2 : u.2 = c <;> split_ifs <;>
        simp_all [contributions3, isPair, List.countP_cons, Ne.symm nab, Ne.symm ncb]
    · by_cases e2 : u.2 = a
      · have : own u.2 = own a := by rw [e2]
        cases newton3 <;> by_cases e3 : u.1 = c <;> split_ifs <;>
          simp_all [contributions3, isPair, List.countP_cons, Ne.symm nab, Ne.symm ncb]
      · cases newton3 <;> split_ifs <;>
          simp_all [contributions3, isPair, List.countP_cons, Ne.symm nab, Ne.symm ncb]
  · apply countP_flatMap_zero
    intro u hu
    have hm := mem_pairLoop hu
    have c1 := hne _ ((mem_regionAround pos own).1 hm.1).1
    have c2 := hne _ ((mem_regionAround pos own).1 hm.2).1
    unfold rem3Inner
    cases newton3
    · have hi : own a ≠ .owned := by simpa using hn
      simp only [Bool.false_eq_true, if_false]
      by_cases e1 : u.1 = a
      · have : own u.1 = own a := by rw [e1]
        split_ifs <;> simp_all [contributions3, List.countP_cons, Ne.symm nab]
      · by_cases e2 : u.2 = a
        · have : own u.2 = own a := by rw [e2]
          split_ifs <;> simp_all [contributions3, List.countP_cons, Ne.symm nab]
        · split_ifs <;> simp_all [contributions3, List.countP_cons, Ne.symm nab]
    · simp at hn

end
end Verif
