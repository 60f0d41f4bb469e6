import Verif.Model.TripleTraversal
import Verif.Lemmas.LCInteract
import Verif.Lemmas.Remainder3
import Verif.Props.C19
/-! Contributions of the functor calls of a three-body traversal. -/
namespace Verif
open Spec

section
variable {P : Type} [DecidableEq P]

theorem timesReceived3_flatMap_indicator {X : Type} {l : List X} {g : X → List (TripleCall P)} {a b c : P} {q : X → Bool}
    (h : ∀ x ∈ l, timesReceived3 (g x) a b c = if q x then 1 else 0) : timesReceived3 (l.flatMap g) a b c = l.countP q := by
  unfold timesReceived3 at *
  rw [contributions3_flatMap]
  exact countP_flatMap_indicator h

theorem timesReceived3_flatMap_le {X : Type} {l : List X} {g : X → List (TripleCall P)} {a b c : P} {q : X → Bool}
    (h : ∀ x ∈ l, timesReceived3 (g x) a b c ≤ if q x then 1 else 0) : timesReceived3 (l.flatMap g) a b c ≤ l.countP q := by
  induction l with
  | nil => simp [timesReceived3, contributions3]
  | cons x l ih =>
    have h1 := h x (by simp)
    have h2 := ih (fun y hy => h y (by simp [hy]))
    rw [List.flatMap_cons, timesReceived3_append, List.countP_cons]
    omega

theorem timesReceived3_nil (a b c : P) : timesReceived3 ([] : List (TripleCall P)) a b c = 0 := by simp [timesReceived3, contributions3]

/-- Who takes part in a contribution. -/
theorem mem_contributions3_calls {calls : List (TripleCall P)} {a b c : P} (h : timesReceived3 calls a b c ≠ 0) :
    ∃ t ∈ calls, (a = t.p ∧ ((b = t.q ∧ c = t.r) ∨ (b = t.r ∧ c = t.q))) ∨
      (t.newton3 = true ∧ ((a = t.q ∧ ((b = t.p ∧ c = t.r) ∨ (b = t.r ∧ c = t.p))) ∨
        (a = t.r ∧ ((b = t.p ∧ c = t.q) ∨ (b = t.q ∧ c = t.p))))) := by
  unfold timesReceived3 at h
  rw [Nat.ne_zero_iff_zero_lt, List.countP_pos_iff] at h
  obtain ⟨u, hu, hp⟩ := h
  unfold contributions3 at hu
  obtain ⟨t, ht, hu⟩ := List.mem_flatMap.1 hu
  refine ⟨t, ht, ?_⟩
  simp only [decide_eq_true_eq] at hp
  rcases List.mem_cons.1 hu with rfl | hu
  · simp only at hp
    obtain ⟨rfl, ⟨rfl, rfl⟩ | ⟨rfl, rfl⟩⟩ := hp
    · exact .inl ⟨rfl, .inl ⟨rfl, rfl⟩⟩
    · exact .inl ⟨rfl, .inr ⟨rfl, rfl⟩⟩
  · split at hu
    · rename_i hn
      simp only [List.mem_cons, List.not_mem_nil, or_false] at hu
      rcases hu with rfl | rfl <;> simp only at hp <;> obtain ⟨rfl, ⟨rfl, rfl⟩ | ⟨rfl, rfl⟩⟩ := hp
      · exact .inr ⟨hn, .inl ⟨rfl, .inl ⟨rfl, rfl⟩⟩⟩
      · exact .inr ⟨hn, .inl ⟨rfl, .inr ⟨rfl, rfl⟩⟩⟩
      · exact .inr ⟨hn, .inr ⟨rfl, .inl ⟨rfl, rfl⟩⟩⟩
      · exact .inr ⟨hn, .inr ⟨rfl, .inr ⟨rfl, rfl⟩⟩⟩
    · cases hu

/-- With Newton 3 all three particles receive. -/
theorem timesReceived3_n3 {l : List (TripleCall P)} (h : ∀ t ∈ l, t.newton3 = true)
    (hne : ∀ t ∈ l, t.p ≠ t.q ∧ t.p ≠ t.r ∧ t.q ≠ t.r) (a b c : P) : timesReceived3 l a b c = timesTriple l a b c := by
  unfold timesReceived3 contributions3 timesTriple
  apply countP_flatMap_indicator
  rintro ⟨x, y, z, n⟩ ht
  have hn := h _ ht
  obtain ⟨n1, n2, n3⟩ := hne _ ht
  simp only at hn n1 n2 n3
  subst hn
  by_cases h1 : x = a
  · subst h1
    simp [perm_pair_iff, n1.symm, n2.symm, List.countP_cons]
  · by_cases h2 : y = a
    · subst h2
      simp [perm3_y, n1, n3.symm, List.countP_cons]
    · by_cases h3 : z = a
      · subst h3
        simp [perm3_z, n2, n3, List.countP_cons]
      · simp [perm3_none h1 h2 h3, h1, h2, h3, List.countP_cons]

/-! ### Loops over two and three cells, particles in any order -/

section
variable {pos : P → V3 Rat} {threshold : Nat} {cutoff : Rat} {dir : V3 Rat} {cell1 cell2 cell3 : List P}
  {view1 view2 : List (Rat × P)} {a b c : P}

omit [DecidableEq P] in
theorem NearTriple.swap (h : NearTriple pos cutoff a b c) : NearTriple pos cutoff b a c := ⟨near_symm h.1, h.2.2, h.2.1⟩
omit [DecidableEq P] in
theorem NearTriple.swap' (h : NearTriple pos cutoff a b c) : NearTriple pos cutoff a c b := ⟨h.2.1, h.1, near_symm h.2.2⟩

theorem isTriple_rot : isTriple id a b c = isTriple (P := P) id b c a := isTriple_congr (List.perm_append_comm (l₁ := [a]) (l₂ := [b, c]))
theorem isTriple_swap : isTriple id a b c = isTriple (P := P) id b a c := isTriple_congr (List.Perm.swap _ _ _)
theorem isTriple_swap' : isTriple id a b c = isTriple (P := P) id a c b := isTriple_congr ((List.Perm.swap _ _ _).cons a)

theorem pairTriples_count (hnd1 : cell1.Nodup) (hnd2 : cell2.Nodup) (hdis : ∀ p ∈ cell1, p ∉ cell2)
    (hv1 : IsSortedView pos dir cell1 view1) (hv2 : IsSortedView pos dir cell2 view2) (hab : a ≠ b) (hac : a ≠ c) (hbc : b ≠ c)
    (ha : a ∈ cell1 ∨ a ∈ cell2) (hb : b ∈ cell1 ∨ b ∈ cell2) (hc : c ∈ cell1 ∨ c ∈ cell2)
    (n1 : ¬ (a ∈ cell1 ∧ b ∈ cell1 ∧ c ∈ cell1)) (n2 : ¬ (a ∈ cell2 ∧ b ∈ cell2 ∧ c ∈ cell2)) :
    (pairTriples threshold cutoff dir cell1 cell2 view1 view2).countP (fun t => isTriple id a b c t.1) ≤ 1 ∧
    (NearTriple pos cutoff a b c → NotBehind pos dir cutoff cell1 cell2 →
      (pairTriples threshold cutoff dir cell1 cell2 view1 view2).countP (fun t => isTriple id a b c t.1) = 1) := by
  rcases ha with ha | ha <;> rcases hb with hb | hb <;> rcases hc with hc | hc
  · exact absurd ⟨ha, hb, hc⟩ n1
  · exact ⟨pairTriples_two_one_le hnd1 hnd2 hdis hv1 hv2 ha hb hc, fun h h' =>
      pairTriples_two_one_eq hnd1 hnd2 hdis hv1 hv2 ha hb hc hab (.inr (.inr ⟨h, h'⟩))⟩
  · rw [isTriple_swap']
    exact ⟨pairTriples_two_one_le hnd1 hnd2 hdis hv1 hv2 ha hc hb, fun h h' =>
      pairTriples_two_one_eq hnd1 hnd2 hdis hv1 hv2 ha hc hb hac (.inr (.inr ⟨h.swap', h'⟩))⟩
  · exact ⟨pairTriples_one_two_le hnd1 hnd2 hdis hv1 hv2 ha hb hc hbc, fun h h' =>
      pairTriples_one_two_eq hnd1 hnd2 hdis hv1 hv2 ha hb hc hbc (.inr (.inr ⟨h, h'⟩))⟩
  · rw [isTriple_rot]
    exact ⟨pairTriples_two_one_le hnd1 hnd2 hdis hv1 hv2 hb hc ha, fun h h' =>
      pairTriples_two_one_eq hnd1 hnd2 hdis hv1 hv2 hb hc ha hbc (.inr (.inr ⟨h.swap.swap', h'⟩))⟩
  · rw [isTriple_swap]
    exact ⟨pairTriples_one_two_le hnd1 hnd2 hdis hv1 hv2 hb ha hc hac, fun h h' =>
      pairTriples_one_two_eq hnd1 hnd2 hdis hv1 hv2 hb ha hc hac (.inr (.inr ⟨h.swap, h'⟩))⟩
  · rw [← isTriple_rot]
    exact ⟨pairTriples_one_two_le hnd1 hnd2 hdis hv1 hv2 hc ha hb hab, fun h h' =>
      pairTriples_one_two_eq hnd1 hnd2 hdis hv1 hv2 hc ha hb hab (.inr (.inr ⟨h.swap'.swap, h'⟩))⟩
  · exact absurd ⟨ha, hb, hc⟩ n2

/-- The particles are in the three cells, one in each. -/
def OneEach (cell1 cell2 cell3 : List P) (a b c : P) : Prop :=
  (a ∈ cell1 ∧ ((b ∈ cell2 ∧ c ∈ cell3) ∨ (b ∈ cell3 ∧ c ∈ cell2))) ∨ (a ∈ cell2 ∧ ((b ∈ cell1 ∧ c ∈ cell3) ∨ (b ∈ cell3 ∧ c ∈ cell1))) ∨
    (a ∈ cell3 ∧ ((b ∈ cell1 ∧ c ∈ cell2) ∨ (b ∈ cell2 ∧ c ∈ cell1)))

theorem crossTriples_counts (hnd1 : cell1.Nodup) (hnd2 : cell2.Nodup) (hnd3 : cell3.Nodup) (h12 : ∀ p ∈ cell1, p ∉ cell2)
    (h13 : ∀ p ∈ cell1, p ∉ cell3) (h23 : ∀ p ∈ cell2, p ∉ cell3) (hv1 : IsSortedView pos dir cell1 view1)
    (hv2 : IsSortedView pos dir cell2 view2) (h : OneEach cell1 cell2 cell3 a b c) :
    (crossTriples threshold cutoff dir cell1 cell2 cell3 view1 view2).countP (isTriple id a b c) ≤ 1 ∧
    (NearTriple pos cutoff a b c → NotBehind pos dir cutoff cell1 cell2 →
      (crossTriples threshold cutoff dir cell1 cell2 cell3 view1 view2).countP (isTriple id a b c) = 1) := by
  have key : ∀ x y z, x ∈ cell1 → y ∈ cell2 → z ∈ cell3 → (NearTriple pos cutoff a b c → Near pos cutoff x y) →
      isTriple id a b c = isTriple (P := P) id x y z → 
      (crossTriples threshold cutoff dir cell1 cell2 cell3 view1 view2).countP (isTriple id a b c) ≤ 1 ∧
      (NearTriple pos cutoff a b c → NotBehind pos dir cutoff cell1 cell2 →
        (crossTriples threshold cutoff dir cell1 cell2 cell3 view1 view2).countP (isTriple id a b c) = 1) := by
    intro x y z hx hy hz hn e
    rw [e]
    exact ⟨crossTriples_le_one hnd1 hnd2 hnd3 h12 h13 h23 hv1 hv2 hx hy hz, fun h h' =>
      crossTriples_eq_one hnd1 hnd2 hnd3 h12 h13 h23 hv1 hv2 hx hy hz (.inr (.inr ⟨hn h, h'⟩))⟩
  rcases h with ⟨ha, ⟨hb, hc⟩ | ⟨hb, hc⟩⟩ | ⟨ha, ⟨hb, hc⟩ | ⟨hb, hc⟩⟩ | ⟨ha, ⟨hb, hc⟩ | ⟨hb, hc⟩⟩
  · exact key a b c ha hb hc (fun h => h.1) rfl
  · exact key a c b ha hc hb (fun h => h.2.1) isTriple_swap'
  · exact key b a c hb ha hc (fun h => near_symm h.1) isTriple_swap
  · exact key c a b hc ha hb (fun h => near_symm h.2.1) isTriple_rot.symm
  · exact key b c a hb hc ha (fun h => h.2.2) isTriple_rot
  · exact key c b a hc hb ha (fun h => near_symm h.2.2) (isTriple_rot.trans isTriple_swap)

end

end

section
variable {P : Type} [DecidableEq P] {f : CellFunctorCfg P} {pos : P → V3 Rat} {a b c : P} {cells : List (PCell P)}

/-- The cells that a call works on. -/
def touched3 : CellOp3 → List Int
  | .self i => [i]
  | .pair i j _ => [i, j]
  | .triple i j k _ => [i, j, k]

/-- The call in which `a` may receive the contribution of `b` and `c`, all in the given cells. -/
def hits3 (both : Bool) (ca cb cc : Int) : CellOp3 → Bool
  | .self i => ca = i ∧ cb = i ∧ cc = i
  | .pair i j _ => (ca = i ∨ ca = j) ∧ (cb = i ∨ cb = j) ∧ (cc = i ∨ cc = j) ∧ ¬ (ca = cb ∧ cb = cc) ∧ (both = true ∨ ca = i)
  | .triple i j k _ => (ca = i ∧ ((cb = j ∧ cc = k) ∨ (cb = k ∧ cc = j))) ∨
      (both = true ∧ ((ca = j ∧ ((cb = i ∧ cc = k) ∨ (cb = k ∧ cc = i))) ∨ (ca = k ∧ ((cb = i ∧ cc = j) ∨ (cb = j ∧ cc = i)))))

def ValidOp3 (op : CellOp3) : Prop := (∀ i ∈ touched3 op, 0 ≤ i) ∧ (touched3 op).Nodup

theorem hits3_swap' {both : Bool} {x y z : Int} {op : CellOp3} (h : hits3 both x y z op = true) : hits3 both x z y op = true := by
  cases op <;> simp only [hits3, decide_eq_true_eq] at h ⊢ <;> (try tauto)
  rename_i i j dir
  obtain ⟨h1, h2, h3, h4, h5⟩ := h
  exact ⟨h1, h3, h2, fun e => h4 ⟨e.1.trans e.2, e.2.symm⟩, h5⟩

theorem hits3_swap {x y z : Int} {op : CellOp3} (h : hits3 true x y z op = true) : hits3 true y x z op = true := by
  cases op <;> simp only [hits3, decide_eq_true_eq] at h ⊢ <;> (try tauto)
  rename_i i j dir
  obtain ⟨h1, h2, h3, h4, h5⟩ := h
  exact ⟨h2, h1, h3, fun e => h4 ⟨e.1.symm, e.1.trans e.2⟩, by simp⟩

/-- The calls made for one call to the cell functor. -/
theorem op3_calls {no : P → Int} (hc : CellsOk cells no) (hs : f.Sorts pos) {op : CellOp3} (hop : ValidOp3 op) {t : TripleCall P}
    (h : t ∈ f.op3 cells op) : t.p ∈ (cellAt cells (no t.p)).particles ∧ t.q ∈ (cellAt cells (no t.q)).particles ∧
      t.r ∈ (cellAt cells (no t.r)).particles ∧ (t.p ≠ t.q ∧ t.p ≠ t.r ∧ t.q ≠ t.r) ∧ t.newton3 = f.newton3 ∧
      hits3 f.bidirectional (no t.p) (no t.q) (no t.r) op = true := by
  cases op with
  | self i =>
    have hi : 0 ≤ i := hop.1 i (by simp [touched3])
    simp only [CellFunctorCfg.op3] at h
    unfold processCell3 at h
    rw [processCell3AoS_eq] at h
    split at h
    · simp at h
    · split at h
      · simp at h
      · obtain ⟨u, hu, h⟩ := List.mem_flatMap.1 h
        obtain ⟨m1, m2, m3⟩ := mem_cellTriples (hs _ _) hu
        obtain ⟨e1, e2, e3⟩ := cellTriples_ne (hc.nodup i) (hs _ _) hu
        have o1 := hc.mem i _ hi m1
        have o2 := hc.mem i _ hi m2
        have o3 := hc.mem i _ hi m3
        unfold interactTriple at h
        split at h
        · rename_i hn
          simp at h; subst h
          simp only [o1, o2, o3, hits3]
          exact ⟨m1, m2, m3, ⟨e1, e2, e3⟩, hn.symm, by simp⟩
        · rename_i hn
          simp only [List.mem_append] at h
          rcases h with (h | h) | h <;> split at h <;> simp at h <;> subst h <;> simp only [o1, o2, o3, hits3]
          · exact ⟨m1, m2, m3, ⟨e1, e2, e3⟩, by simpa using hn, by simp⟩
          · exact ⟨m2, m1, m3, ⟨e1.symm, e3, e2⟩, by simpa using hn, by simp⟩
          · exact ⟨m3, m1, m2, ⟨e2.symm, e3.symm, e1⟩, by simpa using hn, by simp⟩
  | pair i j dir =>
    have hi : 0 ≤ i := hop.1 i (by simp [touched3])
    have hj : 0 ≤ j := hop.1 j (by simp [touched3])
    have hij : i ≠ j := by have := hop.2; simp [touched3] at this; exact this
    have hdis : ∀ p ∈ (cellAt cells i).particles, p ∉ (cellAt cells j).particles := fun p h1 h2 =>
      hij ((hc.mem i p hi h1).symm.trans (hc.mem j p hj h2))
    simp only [CellFunctorCfg.op3] at h
    unfold processCellPair3 at h
    rw [processCellPair3AoS_eq] at h
    split at h
    · simp at h
    · split at h
      · simp at h
      · obtain ⟨u, hu, h⟩ := List.mem_flatMap.1 h
        obtain ⟨m1, m2, m3, m4⟩ := mem_pairTriples (hs _ _) (hs _ _) hu
        obtain ⟨e1, e2, e3⟩ := pairTriples_ne (hc.nodup i) (hc.nodup j) hdis (hs _ _) (hs _ _) hu
        have o1 := hc.mem i _ hi m1
        have o2 := hc.mem j _ hj m2
        unfold interactPairTriple at h
        cases hu2 : u.2
        · have m5 := m4 hu2
          have o3 := hc.mem j _ hj m5
          rw [hu2] at h
          split at h
          · rename_i hn
            simp at h; subst h
            simp only [o1, o2, o3, hits3]
            exact ⟨m1, m5, m2, ⟨e1, e2, e3⟩, hn.symm, by simp [hij]⟩
          · rename_i hn
            simp only [List.mem_append, List.mem_cons, Bool.false_or] at h
            rcases h with (h | h) | h
            · subst h
              simp only [o1, o2, o3, hits3]
              exact ⟨m1, m5, m2, ⟨e1, e2, e3⟩, by simpa using hn, by simp [hij]⟩
            · split at h
              · rename_i hb
                simp at h; subst h
                simp only [o1, o2, o3, hits3]
                exact ⟨m5, m1, m2, ⟨e1.symm, e3, e2⟩, by simpa using hn, by simp [hij, Ne.symm hij, hb]⟩
              · simp at h
            · split at h
              · rename_i hb
                simp at h; subst h
                simp only [o1, o2, o3, hits3]
                exact ⟨m2, m1, m5, ⟨e2.symm, e3.symm, e1⟩, by simpa using hn, by simp [hij, Ne.symm hij, hb]⟩
              · simp at h
        · have m5 := m3 hu2
          have o3 := hc.mem i _ hi m5
          rw [hu2] at h
          split at h
          · rename_i hn
            simp at h; subst h
            simp only [o1, o2, o3, hits3]
            exact ⟨m1, m5, m2, ⟨e1, e2, e3⟩, hn.symm, by simp [hij]⟩
          · rename_i hn
            simp only [List.mem_append, List.mem_cons, Bool.true_or, if_true, List.not_mem_nil, or_false] at h
            rcases h with (h | h) | h
            · subst h
              simp only [o1, o2, o3, hits3]
              exact ⟨m1, m5, m2, ⟨e1, e2, e3⟩, by simpa using hn, by simp [hij]⟩
            · subst h
              simp only [o1, o2, o3, hits3]
              exact ⟨m5, m1, m2, ⟨e1.symm, e3, e2⟩, by simpa using hn, by simp [hij]⟩
            · split at h
              · rename_i hb
                simp at h; subst h
                simp only [o1, o2, o3, hits3]
                exact ⟨m2, m1, m5, ⟨e2.symm, e3.symm, e1⟩, by simpa using hn, by simp [hij, Ne.symm hij, hb]⟩
              · simp at h
  | triple i j k dir =>
    have hi : 0 ≤ i := hop.1 i (by simp [touched3])
    have hj : 0 ≤ j := hop.1 j (by simp [touched3])
    have hk : 0 ≤ k := hop.1 k (by simp [touched3])
    obtain ⟨⟨hij, hik⟩, hjk⟩ : (i ≠ j ∧ i ≠ k) ∧ j ≠ k := by have := hop.2; simp [touched3] at this; exact this
    simp only [CellFunctorCfg.op3] at h
    unfold processCellTriple at h
    rw [processCellTripleAoS_eq] at h
    split at h
    · simp at h
    · split at h
      · simp at h
      · obtain ⟨u, hu, h⟩ := List.mem_flatMap.1 h
        obtain ⟨m1, m2, m3⟩ := mem_crossTriples (hs _ _) (hs _ _) hu
        have o1 := hc.mem i _ hi m1
        have o2 := hc.mem j _ hj m2
        have o3 := hc.mem k _ hk m3
        have e1 : u.1 ≠ u.2.1 := fun e => hij (o1.symm.trans (e ▸ o2))
        have e2 : u.1 ≠ u.2.2 := fun e => hik (o1.symm.trans (e ▸ o3))
        have e3 : u.2.1 ≠ u.2.2 := fun e => hjk (o2.symm.trans (e ▸ o3))
        unfold interactCrossTriple at h
        split at h
        · rename_i hn
          simp at h; subst h
          simp only [o1, o2, o3, hits3]
          exact ⟨m1, m2, m3, ⟨e1, e2, e3⟩, hn.symm, by simp⟩
        · rename_i hn
          rw [List.mem_cons] at h
          rcases h with h | h
          · subst h
            simp only [o1, o2, o3, hits3]
            exact ⟨m1, m2, m3, ⟨e1, e2, e3⟩, by simpa using hn, by simp⟩
          · split at h
            · rename_i hb
              simp only [List.mem_cons, List.not_mem_nil, or_false] at h
              rcases h with h | h <;> subst h <;> simp only [o1, o2, o3, hits3]
              · exact ⟨m2, m1, m3, ⟨e1.symm, e3, e2⟩, by simpa using hn, by simp [hb]⟩
              · exact ⟨m3, m1, m2, ⟨e2.symm, e3.symm, e1⟩, by simpa using hn, by simp [hb]⟩
            · simp at h

theorem hits3_mono {x y z : Int} {both : Bool} {op : CellOp3} (h : hits3 both x y z op = true) : hits3 true x y z op = true := by
  cases op <;> simp only [hits3, decide_eq_true_eq] at h ⊢ <;> tauto

/-- A contribution belongs to stored, different particles, and to a call that hits their cells. -/
theorem op3_receiver {no : P → Int} (hc : CellsOk cells no) (hs : f.Sorts pos) {op : CellOp3} (hop : ValidOp3 op)
    (h : timesReceived3 (f.op3 cells op) a b c ≠ 0) : a ∈ (cellAt cells (no a)).particles ∧ b ∈ (cellAt cells (no b)).particles ∧
      c ∈ (cellAt cells (no c)).particles ∧ (a ≠ b ∧ a ≠ c ∧ b ≠ c) ∧
      hits3 (f.newton3 || f.bidirectional) (no a) (no b) (no c) op = true := by
  obtain ⟨t, ht, hm⟩ := mem_contributions3_calls h
  obtain ⟨m1, m2, m3, ⟨e1, e2, e3⟩, hn, hh⟩ := op3_calls hc hs hop ht
  have h0 : hits3 (f.newton3 || f.bidirectional) (no t.p) (no t.q) (no t.r) op = true := by
    cases hb : f.newton3
    · simpa using hh
    · simpa using hits3_mono hh
  rcases hm with ⟨rfl, ⟨rfl, rfl⟩ | ⟨rfl, rfl⟩⟩ | ⟨hnt, hm⟩
  · exact ⟨m1, m2, m3, ⟨e1, e2, e3⟩, h0⟩
  · exact ⟨m1, m3, m2, ⟨e2, e1, e3.symm⟩, hits3_swap' h0⟩
  · have hb : (f.newton3 || f.bidirectional) = true := by rw [← hn, hnt]; rfl
    rw [hb] at h0 ⊢
    rcases hm with ⟨rfl, ⟨rfl, rfl⟩ | ⟨rfl, rfl⟩⟩ | ⟨rfl, ⟨rfl, rfl⟩ | ⟨rfl, rfl⟩⟩
    · exact ⟨m2, m1, m3, ⟨e1.symm, e3, e2⟩, hits3_swap h0⟩
    · exact ⟨m2, m3, m1, ⟨e3, e1.symm, e2.symm⟩, hits3_swap' (hits3_swap h0)⟩
    · exact ⟨m3, m1, m2, ⟨e2.symm, e3.symm, e1⟩, hits3_swap (hits3_swap' h0)⟩
    · exact ⟨m3, m2, m1, ⟨e3.symm, e2.symm, e1.symm⟩, hits3_swap' (hits3_swap (hits3_swap' h0))⟩

theorem op3_n3 {no : P → Int} (hc : CellsOk cells no) (hs : f.Sorts pos) {op : CellOp3} (hop : ValidOp3 op) :
    timesReceived3 (f.op3 cells op) a b c =
      if f.newton3 then timesTriple (f.op3 cells op) a b c else timesTripleFirst (f.op3 cells op) a b c := by
  cases hn : f.newton3
  · simp only [Bool.false_eq_true, if_false]
    exact timesReceived3_noN3 (fun t ht => by rw [(op3_calls hc hs hop ht).2.2.2.2.1, hn]) a b c
  · simp only [if_true]
    exact timesReceived3_n3 (fun t ht => by rw [(op3_calls hc hs hop ht).2.2.2.2.1, hn]) (fun t ht => (op3_calls hc hs hop ht).2.2.2.1) a b c

/-- Particles in the cells that a call hits: at most one contribution, and exactly one for an owned particle with near partners. -/
theorem op3_counts {no : P → Int} (hc : CellsOk cells no) (hs : f.Sorts pos) {op : CellOp3} (hop : ValidOp3 op)
    (hab : a ≠ b) (hac : a ≠ c) (hbc : b ≠ c) (ha : a ∈ (cellAt cells (no a)).particles) (hb : b ∈ (cellAt cells (no b)).particles)
    (hcc : c ∈ (cellAt cells (no c)).particles) (hit : hits3 (f.newton3 || f.bidirectional) (no a) (no b) (no c) op = true) :
    timesReceived3 (f.op3 cells op) a b c ≤ 1 ∧
    ((cellAt cells (no a)).hasOwned = true → f.isHalo a = false → NearTriple pos f.cutoff a b c →
      (∀ i j dir, (op = .pair i j dir ∨ ∃ k, op = .triple i j k dir) →
        NotBehind pos dir f.cutoff (cellAt cells i).particles (cellAt cells j).particles) →
      timesReceived3 (f.op3 cells op) a b c = 1) := by
  have hnil : timesTriple ([] : List (TripleCall P)) a b c = 0 ∧ timesTripleFirst ([] : List (TripleCall P)) a b c = 0 := by
    simp [timesTriple, timesTripleFirst]
  rw [op3_n3 hc hs hop]
  cases op with
  | self i =>
    have hi : 0 ≤ i := hop.1 i (by simp [touched3])
    simp only [hits3, decide_eq_true_eq] at hit
    obtain ⟨e1, e2, e3⟩ := hit
    rw [e1] at ha ⊢
    rw [e2] at hb
    rw [e3] at hcc
    have hle := cellTriples_le_one (threshold := f.threshold) (cutoff := f.cutoff) hab hac hbc (hc.nodup i) (hs ⟨1, 1, 1⟩ _)
    have heq := fun h => cellTriples_eq_one (threshold := f.threshold) (cutoff := f.cutoff) hab hac hbc (hc.nodup i) (hs ⟨1, 1, 1⟩ _) ha hb hcc (.inr h)
    have hne := fun t ht => cellTriples_ne (threshold := f.threshold) (cutoff := f.cutoff) (hc.nodup i) (hs ⟨1, 1, 1⟩ _) (t := t) ht
    simp only [CellFunctorCfg.op3]
    unfold processCell3
    rw [processCell3AoS_eq, ne_nil_of_mem ha]
    simp only [Bool.false_eq_true, if_false]
    cases ho : (cellAt cells i).hasOwned
    · simp [hnil]
    · simp only [Bool.not_true, Bool.false_eq_true, if_false]
      cases hn : f.newton3
      · simp only [Bool.false_eq_true, if_false]
        rw [single3_first hne]
        refine ⟨by split <;> omega, fun _ h2 h3 _ => ?_⟩
        rw [if_neg (by simp [h2])]
        exact heq h3
      · simp only [if_true]
        rw [single3_unordered]
        exact ⟨hle, fun _ _ h3 _ => heq h3⟩
  | pair i j dir =>
    have hi : 0 ≤ i := hop.1 i (by simp [touched3])
    have hj : 0 ≤ j := hop.1 j (by simp [touched3])
    have hij : i ≠ j := by have := hop.2; simp [touched3] at this; exact this
    have hdis : ∀ p ∈ (cellAt cells i).particles, p ∉ (cellAt cells j).particles := fun p h1 h2 =>
      hij ((hc.mem i p hi h1).symm.trans (hc.mem j p hj h2))
    simp only [hits3, decide_eq_true_eq] at hit
    obtain ⟨e1, e2, e3, e4, e5⟩ := hit
    have hmem : ∀ p, p ∈ (cellAt cells (no p)).particles → (no p = i ∨ no p = j) →
        (p ∈ (cellAt cells i).particles ∨ p ∈ (cellAt cells j).particles) := by
      intro p hp h
      rcases h with h | h <;> rw [h] at hp
      · exact .inl hp
      · exact .inr hp
    have ha' := hmem a ha e1
    have hb' := hmem b hb e2
    have hc' := hmem c hcc e3
    obtain ⟨hle, heq⟩ := pairTriples_count (threshold := f.threshold) (cutoff := f.cutoff) (hc.nodup i) (hc.nodup j) hdis (hs dir _) (hs dir _)
      hab hac hbc ha' hb' hc'
      (fun h => e4 ⟨(hc.mem i a hi h.1).trans (hc.mem i b hi h.2.1).symm, (hc.mem i b hi h.2.1).trans (hc.mem i c hi h.2.2).symm⟩)
      (fun h => e4 ⟨(hc.mem j a hj h.1).trans (hc.mem j b hj h.2.1).symm, (hc.mem j b hj h.2.1).trans (hc.mem j c hj h.2.2).symm⟩)
    have mem := fun t ht => mem_pairTriples (threshold := f.threshold) (cutoff := f.cutoff) (hs dir (cellAt cells i).particles) (hs dir (cellAt cells j).particles) (t := t) ht
    have hne := fun t ht => pairTriples_ne (threshold := f.threshold) (cutoff := f.cutoff) (hc.nodup i) (hc.nodup j) hdis (hs dir _) (hs dir _) (t := t) ht
    have i1 : (cellAt cells i).particles.isEmpty = false := by
      rcases ha' with h | h
      · exact ne_nil_of_mem h
      · rcases hb' with h' | h'
        · exact ne_nil_of_mem h'
        · rcases hc' with h'' | h''
          · exact ne_nil_of_mem h''
          · exact absurd ⟨(hc.mem j a hj h).trans (hc.mem j b hj h').symm, (hc.mem j b hj h').trans (hc.mem j c hj h'').symm⟩ e4
    have i2 : (cellAt cells j).particles.isEmpty = false := by
      rcases ha' with h | h
      · rcases hb' with h' | h'
        · rcases hc' with h'' | h''
          · exact absurd ⟨(hc.mem i a hi h).trans (hc.mem i b hi h').symm, (hc.mem i b hi h').trans (hc.mem i c hi h'').symm⟩ e4
          · exact ne_nil_of_mem h''
        · exact ne_nil_of_mem h'
      · exact ne_nil_of_mem h
    simp only [CellFunctorCfg.op3]
    unfold processCellPair3
    rw [processCellPair3AoS_eq, i1, i2]
    simp only [Bool.false_eq_true, or_self, if_false]
    by_cases hg : (((cellAt cells i).hasOwned = false ∧ f.newton3 = false ∧ f.bidirectional = false) ∨
        ((cellAt cells i).hasOwned = false ∧ (cellAt cells j).hasOwned = false))
    · simp only [if_pos hg, hnil, ite_self]
      refine ⟨by omega, fun h1 _ _ _ => ?_⟩
      exfalso
      rcases e1 with e | e <;> rw [e] at h1
      · simp [h1] at hg
      · simp only [h1, Bool.true_eq_false, and_false, or_false] at hg
        rcases e5 with e5 | e5
        · simp [hg.2.1, hg.2.2] at e5
        · rw [e] at e5; exact hij e5.symm
    · simp only [if_neg hg]
      cases hn : f.newton3
      · simp only [Bool.false_eq_true, if_false]
        rcases ha' with h1 | h1
        · rw [pair3_first_one hne]
          · exact ⟨hle, fun _ _ h3 h4 => heq h3 (h4 i j dir (.inl rfl))⟩
          · intro t ht e
            by_contra hx
            exact hdis a h1 (e ▸ (mem t ht).2.2.2 (by simpa using hx))
          · intro t ht e
            exact hdis a h1 (e ▸ (mem t ht).2.1)
        · rw [pair3_first_two hne]
          · have hb : f.bidirectional = true := by
              rcases e5 with e5 | e5
              · simpa [hn] using e5
              · exact absurd ((hc.mem j a hj h1).symm.trans e5).symm hij
            rw [if_pos hb]
            exact ⟨hle, fun _ _ h3 h4 => heq h3 (h4 i j dir (.inl rfl))⟩
          · intro t ht e
            exact hdis _ (mem t ht).1 (e ▸ h1)
          · intro t ht e
            by_contra hx
            exact hdis _ ((mem t ht).2.2.1 (by simpa using hx)) (e ▸ h1)
      · simp only [if_true]
        rw [pair3_unordered]
        exact ⟨hle, fun _ _ h3 h4 => heq h3 (h4 i j dir (.inl rfl))⟩
  | triple i j k dir =>
    have hi : 0 ≤ i := hop.1 i (by simp [touched3])
    have hj : 0 ≤ j := hop.1 j (by simp [touched3])
    have hk : 0 ≤ k := hop.1 k (by simp [touched3])
    obtain ⟨⟨hij, hik⟩, hjk⟩ : (i ≠ j ∧ i ≠ k) ∧ j ≠ k := by have := hop.2; simp [touched3] at this; exact this
    have dis : ∀ m n : Int, 0 ≤ m → 0 ≤ n → m ≠ n → ∀ p ∈ (cellAt cells m).particles, p ∉ (cellAt cells n).particles :=
      fun m n hm hn hmn p h1 h2 => hmn ((hc.mem m p hm h1).symm.trans (hc.mem n p hn h2))
    have h12 := dis i j hi hj hij
    have h13 := dis i k hi hk hik
    have h23 := dis j k hj hk hjk
    have mem := fun t ht => mem_crossTriples (threshold := f.threshold) (cutoff := f.cutoff) (cell3 := (cellAt cells k).particles)
      (hs dir (cellAt cells i).particles) (hs dir (cellAt cells j).particles) (t := t) ht
    have hne : ∀ t ∈ crossTriples f.threshold f.cutoff dir (cellAt cells i).particles (cellAt cells j).particles (cellAt cells k).particles
        (f.sorted dir (cellAt cells i).particles) (f.sorted dir (cellAt cells j).particles), t.2.1 ≠ t.2.2 :=
      fun t ht e => h23 _ (mem t ht).2.1 (e ▸ (mem t ht).2.2)
    simp only [hits3, decide_eq_true_eq] at hit
    have hone : OneEach (cellAt cells i).particles (cellAt cells j).particles (cellAt cells k).particles a b c := by
      unfold OneEach
      rcases hit with ⟨x1, ⟨x2, x3⟩ | ⟨x2, x3⟩⟩ | ⟨-, ⟨x1, ⟨x2, x3⟩ | ⟨x2, x3⟩⟩ | ⟨x1, ⟨x2, x3⟩ | ⟨x2, x3⟩⟩⟩ <;>
        rw [x1] at ha <;> rw [x2] at hb <;> rw [x3] at hcc
      · exact .inl ⟨ha, .inl ⟨hb, hcc⟩⟩
      · exact .inl ⟨ha, .inr ⟨hb, hcc⟩⟩
      · exact .inr (.inl ⟨ha, .inl ⟨hb, hcc⟩⟩)
      · exact .inr (.inl ⟨ha, .inr ⟨hb, hcc⟩⟩)
      · exact .inr (.inr ⟨ha, .inl ⟨hb, hcc⟩⟩)
      · exact .inr (.inr ⟨ha, .inr ⟨hb, hcc⟩⟩)
    obtain ⟨hle, heq⟩ := crossTriples_counts (threshold := f.threshold) (cutoff := f.cutoff) (hc.nodup i) (hc.nodup j) (hc.nodup k)
      h12 h13 h23 (hs dir _) (hs dir _) hone
    have hem : (cellAt cells i).particles.isEmpty = false ∧ (cellAt cells j).particles.isEmpty = false ∧ (cellAt cells k).particles.isEmpty = false := by
      rcases hone with ⟨x1, ⟨x2, x3⟩ | ⟨x2, x3⟩⟩ | ⟨x1, ⟨x2, x3⟩ | ⟨x2, x3⟩⟩ | ⟨x1, ⟨x2, x3⟩ | ⟨x2, x3⟩⟩ <;>
        exact ⟨ne_nil_of_mem (by assumption), ne_nil_of_mem (by assumption), ne_nil_of_mem (by assumption)⟩
    simp only [CellFunctorCfg.op3]
    unfold processCellTriple
    rw [processCellTripleAoS_eq, hem.1, hem.2.1, hem.2.2]
    simp only [Bool.false_eq_true, or_self, if_false]
    by_cases hg : (((cellAt cells i).hasOwned = false ∧ f.newton3 = false ∧ f.bidirectional = false) ∨
        ((cellAt cells i).hasOwned = false ∧ (cellAt cells j).hasOwned = false ∧ (cellAt cells k).hasOwned = false))
    · simp only [if_pos hg, hnil, ite_self]
      refine ⟨by omega, fun h1 _ _ _ => ?_⟩
      exfalso
      rcases hit with ⟨e, -⟩ | ⟨e5, ⟨e, -⟩ | ⟨e, -⟩⟩ <;> rw [e] at h1
      · simp [h1] at hg
      · simp only [h1, Bool.true_eq_false, false_and, and_false, or_false] at hg
        simp [hg.2.1, hg.2.2] at e5
      · simp only [h1, Bool.true_eq_false, and_false, or_false] at hg
        simp [hg.2.1, hg.2.2] at e5
    · simp only [if_neg hg]
      cases hn : f.newton3
      · simp only [Bool.false_eq_true, if_false]
        have two : (no a = j ∨ no a = k) → f.bidirectional = true := by
          intro h
          rcases hit with ⟨e, -⟩ | ⟨e5, -⟩
          · rw [e] at h; rcases h with h | h
            · exact absurd h hij
            · exact absurd h hik
          · simpa [hn] using e5
        rcases hone with ⟨h1, -⟩ | ⟨h1, -⟩ | ⟨h1, -⟩
        · rw [cross3_first_one (a := a) (fun t ht e => h12 a h1 (e ▸ (mem t ht).2.1)) (fun t ht e => h13 a h1 (e ▸ (mem t ht).2.2))]
          exact ⟨hle, fun _ _ h3 h4 => heq h3 (h4 i j dir (.inr ⟨k, rfl⟩))⟩
        · rw [cross3_first_other hne (fun t ht e => h12 _ (mem t ht).1 (e ▸ h1)), if_pos (two (.inl (hc.mem j a hj h1)))]
          exact ⟨hle, fun _ _ h3 h4 => heq h3 (h4 i j dir (.inr ⟨k, rfl⟩))⟩
        · rw [cross3_first_other hne (fun t ht e => h13 _ (mem t ht).1 (e ▸ h1)), if_pos (two (.inr (hc.mem k a hk h1)))]
          exact ⟨hle, fun _ _ h3 h4 => heq h3 (h4 i j dir (.inr ⟨k, rfl⟩))⟩
      · simp only [if_true]
        rw [cross3_unordered]
        exact ⟨hle, fun _ _ h3 h4 => heq h3 (h4 i j dir (.inr ⟨k, rfl⟩))⟩

theorem op3_received_le {no : P → Int} (hc : CellsOk cells no) (hs : f.Sorts pos) {op : CellOp3} (hop : ValidOp3 op) :
    timesReceived3 (f.op3 cells op) a b c ≤ if hits3 (f.newton3 || f.bidirectional) (no a) (no b) (no c) op then 1 else 0 := by
  by_cases h0 : timesReceived3 (f.op3 cells op) a b c = 0
  · omega
  · obtain ⟨m1, m2, m3, ⟨e1, e2, e3⟩, hh⟩ := op3_receiver hc hs hop h0
    rw [if_pos hh]
    exact (op3_counts hc hs hop e1 e2 e3 m1 m2 m3 hh).1

theorem op3_received {no : P → Int} (hc : CellsOk cells no) (hs : f.Sorts pos) {op : CellOp3} (hop : ValidOp3 op)
    (hab : a ≠ b) (hac : a ≠ c) (hbc : b ≠ c) (ha : a ∈ (cellAt cells (no a)).particles) (hb : b ∈ (cellAt cells (no b)).particles)
    (hcc : c ∈ (cellAt cells (no c)).particles) (hown : (cellAt cells (no a)).hasOwned = true) (hh : f.isHalo a = false)
    (hn : NearTriple pos f.cutoff a b c)
    (hdir : ∀ i j dir, (op = .pair i j dir ∨ ∃ k, op = .triple i j k dir) →
        NotBehind pos dir f.cutoff (cellAt cells i).particles (cellAt cells j).particles) :
    timesReceived3 (f.op3 cells op) a b c = if hits3 (f.newton3 || f.bidirectional) (no a) (no b) (no c) op then 1 else 0 := by
  by_cases hit : hits3 (f.newton3 || f.bidirectional) (no a) (no b) (no c) op = true
  · rw [if_pos hit]
    exact (op3_counts hc hs hop hab hac hbc ha hb hcc hit).2 hown hh hn hdir
  · have := op3_received_le (f := f) (a := a) (b := b) (c := c) hc hs hop
    rw [if_neg hit] at this ⊢
    omega

end

end Verif
