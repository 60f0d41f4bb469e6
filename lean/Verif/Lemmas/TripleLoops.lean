import Verif.Lemmas.CellLoops
/-! Counting the triplets of the loops of `CellFunctor3B`. -/
namespace Verif

variable {X P : Type}

theorem mem_untilBreak' {key : X → Rat} {stop : X → Bool} {l : List X} (hs : l.Pairwise (fun a b => key a ≤ key b)) {y : X}
    (hy : y ∈ l) (hm : ∀ z ∈ l, key z ≤ key y → stop z = false) : y ∈ untilBreak stop l :=
  mem_untilBreak hs hy (hm y hy (le_refl _)) (fun z hz hzy hst => by rw [hm z hz hzy] at hst; cases hst)

variable [DecidableEq P]

/-- `t` is the unordered triplet `{a, b, c}`. -/
def isTriple (get : X → P) (a b c : P) (t : X × X × X) : Bool :=
  decide ([get t.1, get t.2.1, get t.2.2].Perm [a, b, c])

omit [DecidableEq P] in
theorem perm_pair_iff (x y a b : P) : [x, y].Perm [a, b] ↔ (x = a ∧ y = b) ∨ (x = b ∧ y = a) := by
  constructor
  · intro h
    have hx : x ∈ [a, b] := h.subset (by simp)
    simp at hx
    rcases hx with rfl | rfl
    · left
      have := (List.perm_cons _).1 h
      simp at this
      exact ⟨rfl, this⟩
    · right
      have h2 : [x, y].Perm [x, a] := h.trans (List.Perm.swap _ _ _)
      have := (List.perm_cons _).1 h2
      simp at this
      exact ⟨rfl, this⟩
  · rintro (⟨rfl, rfl⟩ | ⟨rfl, rfl⟩)
    · exact .refl _
    · exact .swap _ _ _

theorem isTriple_congr {get : X → P} {a b c a' b' c' : P} (h : [a, b, c].Perm [a', b', c']) :
    isTriple get a b c = isTriple get a' b' c' := by
  funext t
  simp only [isTriple]
  exact decide_eq_decide.2 ⟨fun k => k.trans h, fun k => k.trans h.symm⟩

theorem isTriple_first {get : X → P} {a b c : P} {t : X × X × X} (h : get t.1 = a) :
    isTriple get a b c t = isPair get b c (t.2.1, t.2.2) := by
  simp only [isTriple, isPair, h]
  exact decide_eq_decide.2 ((List.perm_cons _).trans (perm_pair_iff _ _ _ _))

theorem isTriple_first_mem {get : X → P} {a b c : P} {t : X × X × X} (h : isTriple get a b c t = true) :
    get t.1 = a ∨ get t.1 = b ∨ get t.1 = c := by
  simp only [isTriple, decide_eq_true_eq] at h
  have : get t.1 ∈ [a, b, c] := h.subset (by simp)
  simpa using this

/-! ### Two inner loops -/

omit [DecidableEq P] in
theorem mem_tripleInner {stop2 : X → X → Bool} {stop3 : X → X → X → Bool} {x : X} {l : List X} {t : X × X × X}
    (h : t ∈ tripleInner stop2 stop3 x l) : t.1 = x ∧ t.2.1 ∈ l ∧ t.2.2 ∈ l := by
  induction l with
  | nil => cases h
  | cons y l ih =>
    unfold tripleInner at h
    split at h
    · cases h
    · simp only [List.mem_append, List.mem_map] at h
      rcases h with ⟨z, hz, rfl⟩ | h
      · exact ⟨rfl, by simp, by simp [mem_of_untilBreak hz]⟩
      · obtain ⟨h1, h2, h3⟩ := ih h
        exact ⟨h1, by simp [h2], by simp [h3]⟩

omit [DecidableEq P] in
theorem tripleInner_ne {get : X → P} {stop2 : X → X → Bool} {stop3 : X → X → X → Bool} {x : X} {l : List X}
    (hnd : (l.map get).Nodup) {t : X × X × X} (h : t ∈ tripleInner stop2 stop3 x l) : get t.2.1 ≠ get t.2.2 := by
  induction l with
  | nil => cases h
  | cons y l ih =>
    rw [List.map_cons, List.nodup_cons] at hnd
    unfold tripleInner at h
    split at h
    · cases h
    · simp only [List.mem_append, List.mem_map] at h
      rcases h with ⟨z, hz, rfl⟩ | h
      · intro e
        exact hnd.1 (List.mem_map.2 ⟨z, mem_of_untilBreak hz, e.symm⟩)
      · exact ih hnd.2 h

theorem tripleInner_zero {get : X → P} {stop2 : X → X → Bool} {stop3 : X → X → X → Bool} {x : X} {l : List X} {a b : P}
    (ha : a ∉ l.map get) : (tripleInner stop2 stop3 x l).countP (fun t => isPair get a b (t.2.1, t.2.2)) = 0 := by
  rw [List.countP_eq_zero]
  intro t ht hc
  obtain ⟨-, h1, h2⟩ := mem_tripleInner ht
  simp only [isPair, decide_eq_true_eq] at hc
  rcases hc with ⟨h, -⟩ | ⟨-, h⟩
  · exact ha (List.mem_map.2 ⟨_, h1, h⟩)
  · exact ha (List.mem_map.2 ⟨_, h2, h⟩)

theorem tripleInner_cons_count {get : X → P} {stop2 : X → X → Bool} {stop3 : X → X → X → Bool} {x y : X} {l : List X} {a b : P}
    (hab : a ≠ b) (hnd : (get y :: l.map get).Nodup) :
    (tripleInner stop2 stop3 x (y :: l)).countP (fun t => isPair get a b (t.2.1, t.2.2)) =
      if stop2 x y then 0
      else if get y = a then (untilBreak (stop3 x y) l).countP (fun z => get z = b)
      else if get y = b then (untilBreak (stop3 x y) l).countP (fun z => get z = a)
      else (tripleInner stop2 stop3 x l).countP (fun t => isPair get a b (t.2.1, t.2.2)) := by
  rw [List.nodup_cons] at hnd
  rw [tripleInner]
  by_cases h0 : stop2 x y = true
  · rw [if_pos h0, if_pos h0]; rfl
  rw [if_neg h0, if_neg h0, List.countP_append, List.countP_map]
  split
  · rename_i h
    rw [tripleInner_zero (by rw [← h]; exact hnd.1), Nat.add_zero]
    apply List.countP_congr
    intro z _
    simp [isPair, h, hab]
  · split
    · rename_i h h2
      rw [isPair_comm, tripleInner_zero (by rw [← h2]; exact hnd.1), Nat.add_zero]
      apply List.countP_congr
      intro z _
      simp [isPair, h2, Ne.symm hab]
    · rename_i h h2
      rw [Nat.add_eq_right, List.countP_eq_zero]
      intro z _
      simp [isPair, h, h2]

theorem tripleInner_le_one {get : X → P} {stop2 : X → X → Bool} {stop3 : X → X → X → Bool} {x : X} {l : List X} {a b : P}
    (hab : a ≠ b) (hnd : (l.map get).Nodup) :
    (tripleInner stop2 stop3 x l).countP (fun t => isPair get a b (t.2.1, t.2.2)) ≤ 1 := by
  induction l with
  | nil => simp [tripleInner]
  | cons y l ih =>
    rw [List.map_cons] at hnd
    rw [tripleInner_cons_count hab hnd]
    rw [List.nodup_cons] at hnd
    split
    · omega
    · split
      · exact countP_label_le (untilBreak_sublist _ _) hnd.2 _
      · split
        · exact countP_label_le (untilBreak_sublist _ _) hnd.2 _
        · exact ih hnd.2

theorem tripleInner_eq_one {get : X → P} {key : X → Rat} {stop2 : X → X → Bool} {stop3 : X → X → X → Bool} {x : X} {l : List X}
    {u v : X} (hs : l.Pairwise (fun a b => key a ≤ key b)) (hnd : (l.map get).Nodup) (huv : get u ≠ get v)
    (hu : u ∈ l) (hv : v ∈ l)
    (h2u : ∀ z ∈ l, key z ≤ key u → stop2 x z = false) (h2v : ∀ z ∈ l, key z ≤ key v → stop2 x z = false)
    (h3u : ∀ z ∈ l, key u ≤ key z → key z ≤ key v → stop3 x u z = false)
    (h3v : ∀ z ∈ l, key v ≤ key z → key z ≤ key u → stop3 x v z = false) :
    (tripleInner stop2 stop3 x l).countP (fun t => isPair get (get u) (get v) (t.2.1, t.2.2)) = 1 := by
  induction l with
  | nil => cases hu
  | cons y l ih =>
    rw [List.map_cons] at hnd
    rw [tripleInner_cons_count huv hnd]
    rw [List.nodup_cons] at hnd
    rw [List.pairwise_cons] at hs
    have inj : ∀ w ∈ y :: l, get w = get y → w = y := by
      intro w hw e
      rcases List.mem_cons.1 hw with h | h
      · exact h
      · exact absurd (List.mem_map.2 ⟨w, h, e⟩) hnd.1
    have h2 : stop2 x y = false := by
      rcases List.mem_cons.1 hu with h | h
      · exact h2u y (by simp) (by rw [h])
      · exact h2u y (by simp) (hs.1 u h)
    rw [if_neg (by simp [h2])]
    split
    · rename_i h
      have := inj u hu h.symm
      subst this
      have hvl : v ∈ l := by
        rcases List.mem_cons.1 hv with rfl | h
        · exact absurd rfl huv
        · exact h
      rw [countP_label (untilBreak_sublist _ _) hnd.2, if_pos (List.mem_map.2 ⟨v, ?_, rfl⟩)]
      exact mem_untilBreak' hs.2 hvl (fun z hz hzv => h3u z (by simp [hz]) (hs.1 z hz) hzv)
    · split
      · rename_i h h'
        have := inj v hv h'.symm
        subst this
        have hul : u ∈ l := by
          rcases List.mem_cons.1 hu with rfl | h
          · exact absurd rfl huv
          · exact h
        rw [countP_label (untilBreak_sublist _ _) hnd.2, if_pos (List.mem_map.2 ⟨u, ?_, rfl⟩)]
        exact mem_untilBreak' hs.2 hul (fun z hz hzv => h3v z (by simp [hz]) (hs.1 z hz) hzv)
      · rename_i h h'
        refine ih hs.2 hnd.2 ?_ ?_ (fun z hz => h2u z (by simp [hz])) (fun z hz => h2v z (by simp [hz]))
          (fun z hz => h3u z (by simp [hz])) (fun z hz => h3v z (by simp [hz]))
        · rcases List.mem_cons.1 hu with rfl | h3
          · exact absurd rfl h
          · exact h3
        · rcases List.mem_cons.1 hv with rfl | h3
          · exact absurd rfl h'
          · exact h3

/-! ### One cell -/

omit [DecidableEq P] in
theorem mem_tripleLoop {stop2 : X → X → Bool} {stop3 : X → X → X → Bool} {l : List X} {t : X × X × X}
    (h : t ∈ tripleLoop stop2 stop3 l) : t.1 ∈ l ∧ t.2.1 ∈ l ∧ t.2.2 ∈ l := by
  induction l with
  | nil => cases h
  | cons x l ih =>
    simp only [tripleLoop, List.mem_append] at h
    rcases h with h | h
    · obtain ⟨h1, h2, h3⟩ := mem_tripleInner h
      exact ⟨by simp [h1], by simp [h2], by simp [h3]⟩
    · obtain ⟨h1, h2, h3⟩ := ih h
      exact ⟨by simp [h1], by simp [h2], by simp [h3]⟩

omit [DecidableEq P] in
theorem tripleLoop_ne {get : X → P} {stop2 : X → X → Bool} {stop3 : X → X → X → Bool} {l : List X}
    (hnd : (l.map get).Nodup) {t : X × X × X} (h : t ∈ tripleLoop stop2 stop3 l) :
    get t.1 ≠ get t.2.1 ∧ get t.1 ≠ get t.2.2 ∧ get t.2.1 ≠ get t.2.2 := by
  induction l with
  | nil => cases h
  | cons x l ih =>
    rw [List.map_cons, List.nodup_cons] at hnd
    simp only [tripleLoop, List.mem_append] at h
    rcases h with h | h
    · obtain ⟨h1, h2, h3⟩ := mem_tripleInner h
      rw [h1]
      exact ⟨fun e => hnd.1 (List.mem_map.2 ⟨_, h2, e.symm⟩), fun e => hnd.1 (List.mem_map.2 ⟨_, h3, e.symm⟩),
        tripleInner_ne hnd.2 h⟩
    · exact ih hnd.2 h

theorem tripleLoop_zero {get : X → P} {stop2 : X → X → Bool} {stop3 : X → X → X → Bool} {l : List X} {a b c : P}
    (ha : a ∉ l.map get) : (tripleLoop stop2 stop3 l).countP (isTriple get a b c) = 0 := by
  rw [List.countP_eq_zero]
  intro t ht hc
  obtain ⟨h1, h2, h3⟩ := mem_tripleLoop ht
  simp only [isTriple, decide_eq_true_eq] at hc
  have : a ∈ [get t.1, get t.2.1, get t.2.2] := hc.symm.subset (by simp)
  simp only [List.mem_cons, List.not_mem_nil, or_false] at this
  rcases this with e | e | e
  · exact ha (List.mem_map.2 ⟨_, h1, e.symm⟩)
  · exact ha (List.mem_map.2 ⟨_, h2, e.symm⟩)
  · exact ha (List.mem_map.2 ⟨_, h3, e.symm⟩)

theorem tripleLoop_cons_count {get : X → P} {stop2 : X → X → Bool} {stop3 : X → X → X → Bool} {x : X} {l : List X} {a b c : P}
    (hnd : (get x :: l.map get).Nodup) :
    (tripleLoop stop2 stop3 (x :: l)).countP (isTriple get a b c) =
      if get x = a then (tripleInner stop2 stop3 x l).countP (fun t => isPair get b c (t.2.1, t.2.2))
      else if get x = b then (tripleInner stop2 stop3 x l).countP (fun t => isPair get a c (t.2.1, t.2.2))
      else if get x = c then (tripleInner stop2 stop3 x l).countP (fun t => isPair get a b (t.2.1, t.2.2))
      else (tripleLoop stop2 stop3 l).countP (isTriple get a b c) := by
  rw [List.nodup_cons] at hnd
  have key : ∀ {a b c : P}, get x = a → (tripleInner stop2 stop3 x l ++ tripleLoop stop2 stop3 l).countP (isTriple get a b c) =
      (tripleInner stop2 stop3 x l).countP (fun t => isPair get b c (t.2.1, t.2.2)) := by
    intro a b c h
    rw [List.countP_append, tripleLoop_zero (by rw [← h]; exact hnd.1), Nat.add_zero]
    apply List.countP_congr
    intro t ht
    rw [isTriple_first (by rw [(mem_tripleInner ht).1]; exact h)]
  rw [tripleLoop]
  split
  · exact key ‹_›
  · split
    · rename_i h
      rw [isTriple_congr (List.Perm.swap b a [c])]
      exact key h
    · split
      · rename_i h
        rw [isTriple_congr (show [a, b, c].Perm [c, a, b] from (List.perm_append_comm (l₁ := [a, b]) (l₂ := [c])))]
        exact key h
      · rename_i h1 h2 h3
        rw [List.countP_append, Nat.add_eq_right, List.countP_eq_zero]
        intro t ht hc
        have := isTriple_first_mem hc
        rw [(mem_tripleInner ht).1] at this
        tauto

theorem tripleLoop_le_one {get : X → P} {stop2 : X → X → Bool} {stop3 : X → X → X → Bool} {l : List X} {a b c : P}
    (hab : a ≠ b) (hac : a ≠ c) (hbc : b ≠ c) (hnd : (l.map get).Nodup) :
    (tripleLoop stop2 stop3 l).countP (isTriple get a b c) ≤ 1 := by
  induction l with
  | nil => simp [tripleLoop]
  | cons x l ih =>
    rw [List.map_cons] at hnd
    rw [tripleLoop_cons_count hnd]
    rw [List.nodup_cons] at hnd
    split
    · exact tripleInner_le_one hbc hnd.2
    · split
      · exact tripleInner_le_one hac hnd.2
      · split
        · exact tripleInner_le_one hab hnd.2
        · exact ih hnd.2

/-- Every triplet at which the loops do not break is produced exactly once. -/
theorem tripleLoop_eq_one {get : X → P} {key : X → Rat} {stop2 : X → X → Bool} {stop3 : X → X → X → Bool} {l : List X}
    {u v w : X} (hs : l.Pairwise (fun a b => key a ≤ key b)) (hnd : (l.map get).Nodup)
    (huv : get u ≠ get v) (huw : get u ≠ get w) (hvw : get v ≠ get w) (hu : u ∈ l) (hv : v ∈ l) (hw : w ∈ l)
    (h2 : ∀ x ∈ [u, v, w], ∀ y ∈ [u, v, w], ∀ z, key x ≤ key z → key z ≤ key y → stop2 x z = false)
    (h3 : ∀ x ∈ [u, v, w], ∀ y ∈ [u, v, w], ∀ q ∈ [u, v, w], ∀ z, key x ≤ key y → key y ≤ key z → key z ≤ key q →
      stop3 x y z = false) :
    (tripleLoop stop2 stop3 l).countP (isTriple get (get u) (get v) (get w)) = 1 := by
  induction l with
  | nil => cases hu
  | cons x l ih =>
    rw [List.map_cons] at hnd
    rw [tripleLoop_cons_count hnd]
    rw [List.nodup_cons] at hnd
    rw [List.pairwise_cons] at hs
    have inj : ∀ y ∈ x :: l, get y = get x → y = x := by
      intro w hw e
      rcases List.mem_cons.1 hw with h | h
      · exact h
      · exact absurd (List.mem_map.2 ⟨w, h, e⟩) hnd.1
    have tail : ∀ y ∈ x :: l, get x ≠ get y → y ∈ l := by
      intro y hy e
      rcases List.mem_cons.1 hy with rfl | h
      · exact absurd rfl e
      · exact h
    have fin : ∀ y y' : X, y ∈ l → y' ∈ l → get y ≠ get y' → x ∈ [u, v, w] → y ∈ [u, v, w] → y' ∈ [u, v, w] →
        (tripleInner stop2 stop3 x l).countP (fun t => isPair get (get y) (get y') (t.2.1, t.2.2)) = 1 := by
      intro y y' hy hy' hne mx my my'
      exact tripleInner_eq_one hs.2 hnd.2 hne hy hy' (fun z hz hzy => h2 x mx y my z (hs.1 z hz) hzy)
        (fun z hz hzy => h2 x mx y' my' z (hs.1 z hz) hzy)
        (fun z hz h1 h2 => h3 x mx y my y' my' z (hs.1 y hy) h1 h2)
        (fun z hz h1 h2 => h3 x mx y' my' y my z (hs.1 y' hy') h1 h2)
    split
    · rename_i h
      have e := inj u hu h.symm
      exact fin v w (tail v hv (by rw [h]; exact huv)) (tail w hw (by rw [h]; exact huw)) hvw (by simp [e]) (by simp) (by simp)
    · split
      · rename_i h
        have e := inj v hv h.symm
        exact fin u w (tail u hu (by rw [h]; exact huv.symm)) (tail w hw (by rw [h]; exact hvw)) huw (by simp [e]) (by simp) (by simp)
      · split
        · rename_i h
          have e := inj w hw h.symm
          exact fin u v (tail u hu (by rw [h]; exact huw.symm)) (tail v hv (by rw [h]; exact hvw.symm)) huv (by simp [e]) (by simp) (by simp)
        · rename_i n1 n2 n3
          exact ih hs.2 hnd.2 (tail u hu n1) (tail v hv n2) (tail w hw n3)

/-! ### Two cells -/

omit [DecidableEq P] in
theorem innerOneTwo_eq (stop2 : X → X → Bool) (stop3 : X → X → X → Bool) (x : X) (l l₂ : List X) :
    innerOneTwo stop2 stop3 x l l₂ = (crossLoop (stop3 x) (untilBreak (stop2 x) l) l₂).map fun t => (x, t.1, t.2) := by
  unfold innerOneTwo crossLoop
  rw [List.map_flatMap]
  simp [List.map_map, Function.comp_def]

omit [DecidableEq P] in
theorem mem_innerOneTwo {stop2 : X → X → Bool} {stop3 : X → X → X → Bool} {x : X} {l l₂ : List X} {t : X × X × X}
    (h : t ∈ innerOneTwo stop2 stop3 x l l₂) : t.1 = x ∧ t.2.1 ∈ l ∧ t.2.2 ∈ l₂ := by
  rw [innerOneTwo_eq] at h
  obtain ⟨s, hs, rfl⟩ := List.mem_map.1 h
  have := mem_crossLoop hs
  exact ⟨rfl, mem_of_untilBreak this.1, this.2⟩

omit [DecidableEq P] in
/-- Where the members of a produced triplet come from. -/
theorem mem_pairTripleLoop {stop2 : X → X → Bool} {stop3 : X → X → X → Bool} {l l₂ : List X} {t : (X × X × X) × Bool}
    (h : t ∈ pairTripleLoop stop2 stop3 l₂ l) :
    t.1.1 ∈ l ∧ t.1.2.2 ∈ l₂ ∧ (t.2 = true → t.1.2.1 ∈ l) ∧ (t.2 = false → t.1.2.1 ∈ l₂) := by
  induction l with
  | nil => cases h
  | cons x l ih =>
    simp only [pairTripleLoop, List.mem_append, List.mem_map] at h
    rcases h with (⟨s, hs, rfl⟩ | ⟨s, hs, rfl⟩) | h
    · obtain ⟨h1, h2, h3⟩ := mem_innerOneTwo hs
      exact ⟨by simp [h1], h3, fun _ => by simp [h2], fun h => by cases h⟩
    · obtain ⟨h1, h2, h3⟩ := mem_tripleInner hs
      exact ⟨by simp [h1], h3, fun h => by (cases h), fun _ => h2⟩
    · obtain ⟨h1, h2, h3, h4⟩ := ih h
      exact ⟨by simp [h1], h2, fun h => by simp [h3 h], h4⟩

omit [DecidableEq P] in
theorem pairTripleLoop_ne {get : X → P} {stop2 : X → X → Bool} {stop3 : X → X → X → Bool} {l l₂ : List X}
    (hnd : (l.map get).Nodup) (hnd₂ : (l₂.map get).Nodup) (hdis : ∀ x ∈ l, ∀ y ∈ l₂, get x ≠ get y)
    {t : (X × X × X) × Bool} (h : t ∈ pairTripleLoop stop2 stop3 l₂ l) :
    get t.1.1 ≠ get t.1.2.1 ∧ get t.1.1 ≠ get t.1.2.2 ∧ get t.1.2.1 ≠ get t.1.2.2 := by
  induction l with
  | nil => cases h
  | cons x l ih =>
    rw [List.map_cons, List.nodup_cons] at hnd
    simp only [pairTripleLoop, List.mem_append, List.mem_map] at h
    rcases h with (⟨s, hs, rfl⟩ | ⟨s, hs, rfl⟩) | h
    · obtain ⟨h1, h2, h3⟩ := mem_innerOneTwo hs
      simp only
      rw [h1]
      exact ⟨fun e => hnd.1 (List.mem_map.2 ⟨_, h2, e.symm⟩), hdis x (by simp) _ h3, hdis _ (by simp [h2]) _ h3⟩
    · obtain ⟨h1, h2, h3⟩ := mem_tripleInner hs
      simp only
      rw [h1]
      exact ⟨hdis x (by simp) _ h2, hdis x (by simp) _ h3, tripleInner_ne hnd₂ hs⟩
    · exact ih hnd.2 (fun x hx => hdis x (by simp [hx])) h

omit [DecidableEq P] in
theorem pairTripleLoop_cons_count {stop2 : X → X → Bool} {stop3 : X → X → X → Bool} {x : X} {l l₂ : List X}
    (p : X × X × X → Bool) :
    (pairTripleLoop stop2 stop3 l₂ (x :: l)).countP (fun t => p t.1) =
      (innerOneTwo stop2 stop3 x l l₂).countP p + (tripleInner stop2 stop3 x l₂).countP p +
        (pairTripleLoop stop2 stop3 l₂ l).countP (fun t => p t.1) := by
  rw [pairTripleLoop, List.countP_append, List.countP_append, List.countP_map, List.countP_map]
  rfl


theorem isTriple_mem {get : X → P} {a b c : P} {t : X × X × X} (h : isTriple get a b c t = true) :
    (get t.2.1 = a ∨ get t.2.1 = b ∨ get t.2.1 = c) ∧ (get t.2.2 = a ∨ get t.2.2 = b ∨ get t.2.2 = c) ∧
    (a = get t.1 ∨ a = get t.2.1 ∨ a = get t.2.2) := by
  simp only [isTriple, decide_eq_true_eq] at h
  have h1 : get t.2.1 ∈ [a, b, c] := h.subset (by simp)
  have h2 : get t.2.2 ∈ [a, b, c] := h.subset (by simp)
  have h3 : a ∈ [get t.1, get t.2.1, get t.2.2] := h.symm.subset (by simp)
  simp only [List.mem_cons, List.not_mem_nil, or_false] at h1 h2 h3
  exact ⟨h1, h2, h3⟩

theorem pairTripleLoop_zero {get : X → P} {stop2 : X → X → Bool} {stop3 : X → X → X → Bool} {l l₂ : List X} {a b c : P}
    (ha : ∀ x ∈ l, get x ≠ a) (ha₂ : ∀ x ∈ l₂, get x ≠ a) :
    (pairTripleLoop stop2 stop3 l₂ l).countP (fun t => isTriple get a b c t.1) = 0 := by
  rw [List.countP_eq_zero]
  intro t ht hc
  obtain ⟨m1, m2, m3, m4⟩ := mem_pairTripleLoop ht
  rcases (isTriple_mem hc).2.2 with e | e | e
  · exact ha _ m1 e.symm
  · cases hb : t.2
    · exact ha₂ _ (m4 hb) e.symm
    · exact ha _ (m3 hb) e.symm
  · exact ha₂ _ m2 e.symm

theorem innerOneTwo_count {get : X → P} {stop2 : X → X → Bool} {stop3 : X → X → X → Bool} {x : X} {l l₂ : List X} {a b c : P}
    (hx : get x = a) (hc : ∀ x ∈ l, get x ≠ c) :
    (innerOneTwo stop2 stop3 x l l₂).countP (isTriple get a b c) =
      (crossLoop (stop3 x) (untilBreak (stop2 x) l) l₂).countP (fun t => get t.1 = b ∧ get t.2 = c) := by
  rw [innerOneTwo_eq, List.countP_map]
  apply List.countP_congr
  intro t ht
  have := hc _ (mem_of_untilBreak (mem_crossLoop ht).1)
  simp only [Function.comp]
  rw [isTriple_first hx]
  simp [isPair, this]

/-- Triplets with two members in the first cell: at most once. -/
theorem pairTripleLoop_two_one_le {get : X → P} {stop2 : X → X → Bool} {stop3 : X → X → X → Bool} {l l₂ : List X} {a b c : P}
    (hnd : (l.map get).Nodup) (hnd₂ : (l₂.map get).Nodup) (hc : ∀ x ∈ l, get x ≠ c)
    (ha : ∀ x ∈ l₂, get x ≠ a) (hb : ∀ x ∈ l₂, get x ≠ b) :
    (pairTripleLoop stop2 stop3 l₂ l).countP (fun t => isTriple get a b c t.1) ≤ 1 := by
  induction l with
  | nil => simp [pairTripleLoop]
  | cons x l ih =>
    rw [List.map_cons, List.nodup_cons] at hnd
    rw [pairTripleLoop_cons_count]
    have h0 : (tripleInner stop2 stop3 x l₂).countP (isTriple get a b c) = 0 := by
      rw [List.countP_eq_zero]
      intro t ht hcc
      obtain ⟨-, m2, m3⟩ := mem_tripleInner ht
      have hne := tripleInner_ne hnd₂ ht
      obtain ⟨k1, k2, -⟩ := isTriple_mem hcc
      have e1 := (k1.resolve_left (ha _ m2)).resolve_left (hb _ m2)
      have e2 := (k2.resolve_left (ha _ m3)).resolve_left (hb _ m3)
      exact hne (e1.trans e2.symm)
    have hcl : ∀ y ∈ l, get y ≠ c := fun y hy => hc y (by simp [hy])
    have hsub : ((untilBreak (stop2 x) l).map get).Nodup := hnd.2.sublist ((untilBreak_sublist _ _).map get)
    have notin : ∀ y ∈ l, get y ≠ get x := fun y hy e => hnd.1 (List.mem_map.2 ⟨y, hy, e⟩)
    rw [h0]
    by_cases e1 : get x = a
    · rw [innerOneTwo_count e1 hcl, pairTripleLoop_zero (fun y hy => e1 ▸ notin y hy) ha]
      have := crossLoop_le_one (stop := stop3 x) (a := b) (b := c) hsub hnd₂
      omega
    · by_cases e2 : get x = b
      · rw [isTriple_congr (List.Perm.swap b a [c]), innerOneTwo_count e2 hcl,
          pairTripleLoop_zero (fun y hy => e2 ▸ notin y hy) hb]
        have := crossLoop_le_one (stop := stop3 x) (a := a) (b := c) hsub hnd₂
        omega
      · have h1 : (innerOneTwo stop2 stop3 x l l₂).countP (isTriple get a b c) = 0 := by
          rw [List.countP_eq_zero]
          intro t ht hcc
          have := isTriple_first_mem hcc
          rw [(mem_innerOneTwo ht).1] at this
          have := hc x (by simp)
          tauto
        rw [h1]
        have := ih hnd.2 hcl
        omega

/-- Triplets with two members in the first cell: exactly once if the loops do not break there. -/
theorem pairTripleLoop_two_one_eq {get : X → P} {key : X → Rat} {stop2 : X → X → Bool} {stop3 : X → X → X → Bool}
    {l l₂ : List X} {u v w : X} (hs : l.Pairwise (fun a b => key a ≤ key b)) (hs₂ : l₂.Pairwise (fun a b => key a ≤ key b))
    (hnd : (l.map get).Nodup) (hnd₂ : (l₂.map get).Nodup) (hdis : ∀ x ∈ l, ∀ y ∈ l₂, get x ≠ get y)
    (ha : ∀ x ∈ l₂, get x ≠ get u) (hb : ∀ x ∈ l₂, get x ≠ get v) (huv : get u ≠ get v)
    (hu : u ∈ l) (hv : v ∈ l) (hw : w ∈ l₂)
    (h2 : ∀ x ∈ [u, v], ∀ y ∈ [u, v], ∀ z, key x ≤ key z → key z ≤ key y → stop2 x z = false)
    (h3 : ∀ x ∈ [u, v], ∀ y ∈ [u, v], ∀ z ∈ l₂, key z ≤ key w → stop3 x y z = false) :
    (pairTripleLoop stop2 stop3 l₂ l).countP (fun t => isTriple get (get u) (get v) (get w) t.1) = 1 := by
  induction l with
  | nil => cases hu
  | cons x l ih =>
    rw [List.map_cons, List.nodup_cons] at hnd
    rw [List.pairwise_cons] at hs
    rw [pairTripleLoop_cons_count]
    have hc : ∀ y ∈ x :: l, get y ≠ get w := fun y hy => hdis y hy w hw
    have h0 : (tripleInner stop2 stop3 x l₂).countP (isTriple get (get u) (get v) (get w)) = 0 := by
      rw [List.countP_eq_zero]
      intro t ht hcc
      obtain ⟨-, m2, m3⟩ := mem_tripleInner ht
      have hne := tripleInner_ne hnd₂ ht
      obtain ⟨k1, k2, -⟩ := isTriple_mem hcc
      have e1 := (k1.resolve_left (ha _ m2)).resolve_left (hb _ m2)
      have e2 := (k2.resolve_left (ha _ m3)).resolve_left (hb _ m3)
      exact hne (e1.trans e2.symm)
    have hcl : ∀ y ∈ l, get y ≠ get w := fun y hy => hc y (by simp [hy])
    have hsub : ((untilBreak (stop2 x) l).map get).Nodup := hnd.2.sublist ((untilBreak_sublist _ _).map get)
    have notin : ∀ y ∈ l, get y ≠ get x := fun y hy e => hnd.1 (List.mem_map.2 ⟨y, hy, e⟩)
    have inj : ∀ y ∈ x :: l, get y = get x → y = x := by
      intro w hw e
      rcases List.mem_cons.1 hw with h | h
      · exact h
      · exact absurd e (notin w h)
    have tail : ∀ y ∈ x :: l, get x ≠ get y → y ∈ l := by
      intro y hy e
      rcases List.mem_cons.1 hy with rfl | h
      · exact absurd rfl e
      · exact h
    have fin : ∀ y, y ∈ l → x ∈ [u, v] → y ∈ [u, v] →
        (crossLoop (stop3 x) (untilBreak (stop2 x) l) l₂).countP (fun t => get t.1 = get y ∧ get t.2 = get w) = 1 := by
      intro y hy mx my
      refine crossLoop_eq_one (key := key) hs₂ hsub hnd₂
        (mem_untilBreak' hs.2 hy (fun z hz hzy => h2 x mx y my z (hs.1 z hz) hzy)) hw ?_ (h3 x mx y my w hw (le_refl _))
      intro z hz hzw hst
      rw [h3 x mx y my z hz hzw] at hst
      cases hst
    rw [h0]
    by_cases e1 : get x = get u
    · have e := inj u hu e1.symm
      rw [innerOneTwo_count e1 hcl, pairTripleLoop_zero (fun y hy => e1 ▸ notin y hy) ha,
        fin v (tail v hv (by rw [e1]; exact huv)) (by simp [e]) (by simp)]
    · by_cases e2 : get x = get v
      · have e := inj v hv e2.symm
        rw [isTriple_congr (List.Perm.swap (get v) (get u) [get w]), innerOneTwo_count e2 hcl,
          pairTripleLoop_zero (fun y hy => e2 ▸ notin y hy) hb,
          fin u (tail u hu (by rw [e2]; exact huv.symm)) (by simp [e]) (by simp)]
      · have h1 : (innerOneTwo stop2 stop3 x l l₂).countP (isTriple get (get u) (get v) (get w)) = 0 := by
          rw [List.countP_eq_zero]
          intro t ht hcc
          have := isTriple_first_mem hcc
          rw [(mem_innerOneTwo ht).1] at this
          have := hc x (by simp)
          tauto
        rw [h1, ih hs.2 hnd.2 (fun x hx => hdis x (by simp [hx])) (tail u hu e1) (tail v hv e2)]

/-- Triplets with two members in the second cell. -/
theorem pairTripleLoop_one_two {get : X → P} {stop2 : X → X → Bool} {stop3 : X → X → X → Bool} {l l₂ : List X} {u : X} {b c : P}
    (hnd : (l.map get).Nodup) (hb : ∀ x ∈ l, get x ≠ b) (hc : ∀ x ∈ l, get x ≠ c) (ha : ∀ x ∈ l₂, get x ≠ get u)
    (hu : u ∈ l) :
    (pairTripleLoop stop2 stop3 l₂ l).countP (fun t => isTriple get (get u) b c t.1) =
      (tripleInner stop2 stop3 u l₂).countP (fun t => isPair get b c (t.2.1, t.2.2)) := by
  induction l with
  | nil => cases hu
  | cons x l ih =>
    rw [List.map_cons, List.nodup_cons] at hnd
    rw [pairTripleLoop_cons_count]
    have notin : ∀ y ∈ l, get y ≠ get x := fun y hy e => hnd.1 (List.mem_map.2 ⟨y, hy, e⟩)
    have h0 : (innerOneTwo stop2 stop3 x l l₂).countP (isTriple get (get u) b c) = 0 := by
      rw [List.countP_eq_zero]
      intro t ht hcc
      obtain ⟨m1, m2, m3⟩ := mem_innerOneTwo ht
      obtain ⟨k1, -, -⟩ := isTriple_mem hcc
      have k0 := isTriple_first_mem hcc
      rw [m1] at k0
      have e0 : get x = get u := k0.resolve_right (fun h => h.elim (hb x (by simp)) (hc x (by simp)))
      have e1 : get t.2.1 = get u := k1.resolve_right (fun h => h.elim (hb _ (by simp [m2])) (hc _ (by simp [m2])))
      exact notin _ m2 (e1.trans e0.symm)
    rw [h0]
    by_cases e1 : get x = get u
    · have e : u = x := by
        rcases List.mem_cons.1 hu with h | h
        · exact h
        · exact absurd e1.symm (notin u h)
      rw [pairTripleLoop_zero (fun y hy => e1 ▸ notin y hy) ha, Nat.zero_add, Nat.add_zero, e]
      apply List.countP_congr
      intro t ht
      rw [isTriple_first (by rw [(mem_tripleInner ht).1])]
    · have h1 : (tripleInner stop2 stop3 x l₂).countP (isTriple get (get u) b c) = 0 := by
        rw [List.countP_eq_zero]
        intro t ht hcc
        have := isTriple_first_mem hcc
        rw [(mem_tripleInner ht).1] at this
        have := hc x (by simp)
        have := hb x (by simp)
        tauto
      have hul : u ∈ l := by
        rcases List.mem_cons.1 hu with rfl | h
        · exact absurd rfl e1
        · exact h
      rw [h1, ih hnd.2 (fun x hx => hb x (by simp [hx])) (fun x hx => hc x (by simp [hx])) hul]
      omega

end Verif
