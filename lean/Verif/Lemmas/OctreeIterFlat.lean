import Verif.Lemmas.OctreeIter
import Verif.Lemmas.OctreeStorage
import Mathlib.Data.List.GetD
/-! The leaves of both trees as one list of cells. -/
namespace Verif.Octree

variable {P : Type}

/-- All leaves. -/
def allLeaves (cfg : OTIterCfg P) (owned halo : OTree P) : List (Leaf P) := under owned cfg.box [0] ++ under halo cfg.haloBox [1]

theorem flatMap_split {α β : Type} {l : List α} {f : α → List β} {pre post : List β} {e : β} (h : l.flatMap f = pre ++ e :: post) :
    ∃ l1 i l2 p q, l = l1 ++ i :: l2 ∧ f i = p ++ e :: q ∧ pre = l1.flatMap f ++ p ∧ post = q ++ l2.flatMap f := by
  induction l generalizing pre with
  | nil => simp at h
  | cons a l ih =>
    rw [List.flatMap_cons] at h
    rcases List.append_eq_append_iff.1 h with ⟨as, h1, h2⟩ | ⟨bs, h1, h2⟩
    · obtain ⟨l1, i, l2, p, q, g1, g2, g3, g4⟩ := ih h2
      exact ⟨a :: l1, i, l2, p, q, by rw [g1]; rfl, g2, by rw [h1, g3]; simp, g4⟩
    · cases bs with
      | nil =>
        rw [List.nil_append] at h2
        obtain ⟨l1, i, l2, p, q, g1, g2, g3, g4⟩ := ih (pre := []) (by rw [← h2]; rfl)
        have g3' := List.append_eq_nil_iff.1 g3.symm
        refine ⟨a :: l1, i, l2, p, q, by rw [g1]; rfl, g2, ?_, g4⟩
        rw [List.flatMap_cons, g3'.1, g3'.2]
        simpa using h1.symm
      | cons b bs =>
        rw [List.cons_append, List.cons.injEq] at h2
        exact ⟨[], a, l, pre, bs, rfl, by rw [h1, h2.1], by simp, h2.2⟩

theorem range_split {n i : Nat} {as bs : List Nat} (h : List.range n = as ++ i :: bs) : i < n ∧ as = List.range i ∧ bs = List.range' (i + 1) (n - 1 - i) := by
  have hlen : as.length = i := by
    have h1 := congrArg (·[as.length]?) h
    simp only [List.getElem?_append_right (Nat.le_refl _), Nat.sub_self, List.getElem?_cons_zero] at h1
    obtain ⟨h2, h3⟩ := List.getElem?_eq_some_iff.1 h1
    simpa using h3
  have hi : i < n := List.mem_range.1 (by rw [h]; simp)
  refine ⟨hi, ?_, ?_⟩
  · have h1 := congrArg (List.take i) h
    rw [List.take_range, List.take_left' hlen, Nat.min_eq_left hi.le] at h1
    exact h1.symm
  · have h1 := congrArg (List.drop (i + 1)) h
    have h2 : (as ++ i :: bs).drop (i + 1) = bs := by
      rw [show as ++ i :: bs = (as ++ [i]) ++ bs by simp]
      exact List.drop_left' (by simp [hlen])
    rw [h2] at h1
    rw [← h1, List.range_eq_range', List.drop_range']
    congr 1 <;> omega

/-- The leaves below a node know what comes after them. -/
theorem under_chain {cfg : OTIterCfg P} {owned halo : OTree P} (t : OTree P) (b : Box) (ds : List Nat)
    (hn : nodeOf cfg owned halo ds = some (t, b)) {pre post : List (Leaf P)} {e : Leaf P} (h : under t b ds = pre ++ e :: post) :
    nodeOf cfg owned halo e.1 = some (.leaf e.2.2, e.2.1) ∧ restAfter cfg owned halo e.1 = post ++ restAfter cfg owned halo ds := by
  induction t generalizing b ds pre post with
  | leaf ps =>
    rw [under] at h
    cases pre with
    | nil =>
      rw [List.nil_append, List.cons.injEq] at h
      rw [← h.1, ← h.2]
      exact ⟨hn, rfl⟩
    | cons a pre => simp at h
  | inner c ih =>
    rw [under] at h
    obtain ⟨l1, i, l2, p, q, g1, g2, -, g4⟩ := flatMap_split h
    obtain ⟨hi, -, hl2⟩ := range_split g1
    obtain ⟨k1, k2⟩ := ih (octant i) (childBoxNo b i) (i :: ds) (nodeOf_child hn hi) g2
    refine ⟨k1, ?_⟩
    rw [k2, restAfter_child hn, g4, hl2, List.append_assoc]

theorem split_of_getElem? {α : Type} {l : List α} {k : Nat} {e : α} (h : l[k]? = some e) : l = l.take k ++ e :: l.drop (k + 1) := by
  obtain ⟨hk, rfl⟩ := List.getElem?_eq_some_iff.1 h
  rw [List.getElem_cons_drop, List.take_append_drop]

section
variable (cfg : OTIterCfg P) (owned halo : OTree P)

/-- First and last leaf of the iteration. -/
def startLeaf : Nat := if cfg.wantsOwned then 0 else (under owned cfg.box [0]).length
def endLeaf : Nat :=
  if cfg.wantsHalo = true ∨ cfg.wantsOwned = false then (allLeaves cfg owned halo).length else (under owned cfg.box [0]).length

variable {cfg owned halo}

theorem endLeaf_le : endLeaf cfg owned halo ≤ (allLeaves cfg owned halo).length := by
  unfold endLeaf allLeaves
  split
  · exact le_refl _
  · simp

theorem startLeaf_lt : startLeaf cfg owned < endLeaf cfg owned halo := by
  have h0 := under_length_pos owned cfg.box [0]
  have h1 := under_length_pos halo cfg.haloBox [1]
  unfold startLeaf endLeaf allLeaves
  rw [List.length_append]
  cases cfg.wantsOwned <;> cases cfg.wantsHalo <;> simp <;> omega

/-- The leaf number `k` and what comes after it. -/
theorem leaf_at {k : Nat} {e : Leaf P} (h : (allLeaves cfg owned halo)[k]? = some e) (h1 : startLeaf cfg owned ≤ k)
    (h2 : k < endLeaf cfg owned halo) :
    nodeOf cfg owned halo e.1 = some (.leaf e.2.2, e.2.1) ∧
    restAfter cfg owned halo e.1 = ((allLeaves cfg owned halo).take (endLeaf cfg owned halo)).drop (k + 1) := by
  unfold allLeaves at h
  by_cases hk : k < (under owned cfg.box [0]).length
  · rw [List.getElem?_append_left hk] at h
    obtain ⟨g1, g2⟩ := under_chain owned cfg.box [0] (cfg := cfg) (owned := owned) (halo := halo) rfl (split_of_getElem? h)
    refine ⟨g1, ?_⟩
    have ho : cfg.wantsOwned = true := by
      by_contra hc
      rw [startLeaf, if_neg hc] at h1
      omega
    rw [g2]
    unfold endLeaf allLeaves
    cases hh : cfg.wantsHalo with
    | true =>
      rw [if_pos (Or.inl rfl), List.take_length, List.drop_append_of_le_length (by omega)]
      simp [restAfter, hh]
    | false =>
      rw [if_neg (by simp [ho]), List.take_left' rfl]
      simp [restAfter, hh]
  · rw [List.getElem?_append_right (by omega)] at h
    obtain ⟨g1, g2⟩ := under_chain halo cfg.haloBox [1] (cfg := cfg) (owned := owned) (halo := halo) rfl (split_of_getElem? h)
    refine ⟨g1, ?_⟩
    have he : endLeaf cfg owned halo = (allLeaves cfg owned halo).length := by
      unfold endLeaf at h2 ⊢
      by_cases hw : cfg.wantsHalo = true ∨ cfg.wantsOwned = false
      · rw [if_pos hw]
      · rw [if_neg hw] at h2; omega
    have d1 : (under owned cfg.box [0]).drop (k + 1) = [] := List.drop_eq_nil_of_le (by omega)
    rw [g2, he, List.take_length, allLeaves, List.drop_append, d1, List.nil_append,
      show k + 1 - (under owned cfg.box [0]).length = k - (under owned cfg.box [0]).length + 1 by omega]
    simp [restAfter]

/-! ### Index vectors as numbers -/

/-- The number with the given digits, lowest first. -/
def val : List Nat → Nat
  | [] => 0
  | d :: r => d + 10 * val r

theorem val_lt {l : List Nat} (h : ∀ d ∈ l, d < 10) : val l < 10 ^ l.length := by
  induction l with
  | nil => simp [val]
  | cons d r ih =>
    have h1 := ih fun x hx => h x (by simp [hx])
    have h2 := h d (by simp)
    rw [val, List.length_cons, pow_succ]
    omega

theorem encodeIndex_eq {ds : List Nat} (h : ∀ d ∈ ds, d < 10) (hl : ds.length ≤ 19) : encodeIndex ds = val ds.reverse := by
  induction ds using List.reverseRecOn with
  | nil => rfl
  | append_singleton ds d ih =>
    have h1 := ih (fun x hx => h x (by simp [hx])) (by simp at hl; omega)
    unfold encodeIndex at h1 ⊢
    rw [List.foldl_append, h1]
    have h2 := val_lt (l := (ds ++ [d]).reverse) (fun x hx => h x (List.mem_reverse.1 hx))
    have h3 : (10 : Nat) ^ (ds ++ [d]).reverse.length ≤ 10 ^ 19 := Nat.pow_le_pow_right (by norm_num) (by simpa using hl)
    have h4 : (10 : Nat) ^ 19 < idxMod := by norm_num [idxMod]
    rw [List.reverse_append, List.reverse_singleton, List.singleton_append] at h2 h3 ⊢
    rw [val] at h2 ⊢
    rw [List.foldl_cons, List.foldl_nil, Nat.mod_eq_of_lt (by omega)]
    omega

theorem under_digits (t : OTree P) (b : Box) (ds : List Nat) : ∀ e ∈ under t b ds, ∃ r : List Nat, e.1 = r.reverse ++ ds ∧ (∀ d ∈ r, d < 8) ∧
    ∀ acc, parseIndex t (val r) acc = some (r.reverse ++ acc, e.2.2) := by
  induction t generalizing b ds with
  | leaf ps =>
    intro e he
    rw [under, List.mem_singleton] at he
    subst he
    exact ⟨[], rfl, by simp, fun acc => rfl⟩
  | inner c ih =>
    intro e he
    rw [under, List.mem_flatMap] at he
    obtain ⟨i, hi, he⟩ := he
    rw [List.mem_range] at hi
    obtain ⟨r, g1, g2, g3⟩ := ih (octant i) (childBoxNo b i) (i :: ds) e he
    refine ⟨i :: r, by rw [g1]; simp, ?_, ?_⟩
    · intro d hd
      rcases List.mem_cons.1 hd with rfl | hd
      · exact hi
      · exact g2 d hd
    · intro acc
      have e1 : val (i :: r) % 10 = i := by rw [val]; omega
      have e2 : val (i :: r) / 10 = val r := by rw [val]; omega
      rw [parseIndex, e1, e2, if_pos hi, g3]
      simp

/-- The index vectors of all leaves have at most 19 digits, so that they fit `size_t` as decimal numbers: depth at most 18. -/
def Shallow (cfg : OTIterCfg P) (owned halo : OTree P) : Prop := ∀ e ∈ allLeaves cfg owned halo, e.1.length ≤ 19

theorem encode_leaf (hs : Shallow cfg owned halo) {e : Leaf P} (he : e ∈ allLeaves cfg owned halo) :
    getLeafCellByIndex owned halo (encodeIndex e.1) = some (e.1, e.2.2) ∧
    ((e ∈ under owned cfg.box [0] ∧ encodeIndex e.1 % 10 = 0) ∨ (e ∈ under halo cfg.haloBox [1] ∧ encodeIndex e.1 % 10 = 1)) := by
  have hl := hs e he
  unfold allLeaves at he
  rcases List.mem_append.1 he with he | he
  · obtain ⟨r, g1, g2, g3⟩ := under_digits _ _ _ e he
    have e1 : encodeIndex e.1 = val (0 :: r) := by
      rw [encodeIndex_eq ?_ hl, g1]
      · simp
      · intro d hd
        rw [g1] at hd
        rcases List.mem_append.1 hd with hd | hd
        · exact lt_trans (g2 d (by simpa using hd)) (by norm_num)
        · rw [List.mem_singleton] at hd; omega
    have e2 : val (0 :: r) % 10 = 0 := by rw [val]; omega
    have e3 : val (0 :: r) / 10 = val r := by rw [val]; omega
    rw [e1]
    refine ⟨?_, Or.inl ⟨he, e2⟩⟩
    rw [getLeafCellByIndex, if_pos e2, e3, g3, g1]
  · obtain ⟨r, g1, g2, g3⟩ := under_digits _ _ _ e he
    have e1 : encodeIndex e.1 = val (1 :: r) := by
      rw [encodeIndex_eq ?_ hl, g1]
      · simp
      · intro d hd
        rw [g1] at hd
        rcases List.mem_append.1 hd with hd | hd
        · exact lt_trans (g2 d (by simpa using hd)) (by norm_num)
        · rw [List.mem_singleton] at hd; omega
    have e2 : val (1 :: r) % 10 = 1 := by rw [val]; omega
    have e3 : val (1 :: r) / 10 = val r := by rw [val]; omega
    rw [e1]
    refine ⟨?_, Or.inr ⟨he, e2⟩⟩
    rw [getLeafCellByIndex, if_neg (by omega), if_pos e2, e3, g3, g1]

theorem first_leaf (t : OTree P) (b : Box) (ds : List Nat) : ∃ e r n, under t b ds = e :: r ∧ e.1 = List.replicate n 0 ++ ds := by
  induction t generalizing b ds with
  | leaf ps => exact ⟨(ds, b, ps), [], 0, rfl, rfl⟩
  | inner c ih =>
    obtain ⟨e, r, n, h1, h2⟩ := ih (octant 0) (childBoxNo b 0) (0 :: ds)
    rw [under, show List.range 8 = 0 :: [1, 2, 3, 4, 5, 6, 7] from rfl, List.flatMap_cons, h1]
    refine ⟨e, _, n + 1, rfl, ?_⟩
    rw [h2, List.replicate_succ']
    simp

theorem encode_zeros (n d : Nat) (hd : d < 10) : encodeIndex (List.replicate n 0 ++ [d]) = d := by
  have : ∀ n, (List.replicate n 0).foldl (fun k d => (k * 10 + d) % idxMod) 0 = 0 := by
    intro n
    induction n with
    | zero => rfl
    | succ n ih => rw [List.replicate_succ, List.foldl_cons]; exact ih
  rw [encodeIndex, List.foldl_append, this]
  simp only [List.foldl_cons, List.foldl_nil]
  rw [Nat.zero_mul, Nat.zero_add]
  exact Nat.mod_eq_of_lt (lt_trans hd (by norm_num [idxMod]))

/-- Where the iteration starts. -/
theorem start_leaf : ∃ e, (allLeaves cfg owned halo)[startLeaf cfg owned]? = some e ∧
    (if (0 : Nat) = 0 ∧ cfg.wantsOwned = false then 1 else 0) = encodeIndex e.1 := by
  unfold startLeaf allLeaves
  cases ho : cfg.wantsOwned with
  | true =>
    obtain ⟨e, r, n, h1, h2⟩ := first_leaf owned cfg.box [0]
    refine ⟨e, by rw [h1]; rfl, ?_⟩
    rw [h2, encode_zeros n 0 (by omega)]
    simp
  | false =>
    obtain ⟨e, r, n, h1, h2⟩ := first_leaf halo cfg.haloBox [1]
    refine ⟨e, by simp [h1], ?_⟩
    rw [h2, encode_zeros n 1 (by omega)]
    simp

/-! ### Contents -/

theorem vertices_eq : vertices = (List.range 8).map octant := by decide

theorem under_contents (t : OTree P) (b : Box) (ds : List Nat) (q : Path) :
    (under t b ds).map (fun e => e.2.2) = (leavesFrom t q).map Prod.snd := by
  induction t generalizing b ds q with
  | leaf ps => rfl
  | inner c ih =>
    rw [under, leavesFrom, List.map_flatMap, List.map_flatMap, vertices_eq, List.flatMap_map]
    congr 1
    funext i
    exact ih _ _ _ _

theorem scanCost_under (t : OTree P) (b : Box) (ds : List Nat) : scanCost (under t b ds) = (leaves t).length + (collectAll t).length := by
  have h := under_contents t b ds []
  have h1 : scanCost (under t b ds) = (((under t b ds).map fun e => e.2.2).map fun l => l.length + 1).sum := by
    rw [List.map_map]; rfl
  rw [h1, h, collectAll_eq t [], leaves, List.length_flatMap, List.map_map]
  generalize leavesFrom t [] = l
  induction l with
  | nil => rfl
  | cons a l ih =>
    simp only [List.map_cons, List.sum_cons, List.length_cons, Function.comp] at ih ⊢
    omega

theorem rounds_enough {k i : Nat} {e : Leaf P} (h : (allLeaves cfg owned halo)[k]? = some e) (n : Nat) :
    scanCost (((allLeaves cfg owned halo).take n).drop (k + 1)) + (e.2.2.length - i) < enoughRounds owned halo := by
  have h0 : ∀ l : List (Leaf P), scanCost ((l.take n).drop (k + 1)) ≤ scanCost (l.drop (k + 1)) := by
    intro l
    rw [List.drop_take]
    conv_rhs => rw [← List.take_append_drop (n - (k + 1)) (l.drop (k + 1)), scanCost_append]
    omega
  have h1 := h0 (allLeaves cfg owned halo)
  have h2 := congrArg scanCost (split_of_getElem? h)
  rw [scanCost_append, scanCost_cons] at h2
  have h3 : scanCost (allLeaves cfg owned halo) + 2 = enoughRounds owned halo := by
    rw [allLeaves, scanCost_append, scanCost_under, scanCost_under, enoughRounds]
    omega
  omega

/-! ### Changing a leaf -/

theorem octant_inj {i j : Nat} (hi : i < 8) (hj : j < 8) (h : octant i = octant j) : i = j := by
  revert h
  interval_cases i <;> interval_cases j <;> decide

theorem under_modify (g : List P → List P) (t : OTree P) (b : Box) (ds : List Nat) {pre post : List (Leaf P)} {e : Leaf P}
    (h : under t b ds = pre ++ e :: post) : ∃ r : List Nat, e.1 = r.reverse ++ ds ∧
      under (modifyAt g (r.map octant) t) b ds = pre ++ (e.1, e.2.1, g e.2.2) :: post := by
  induction t generalizing b ds pre post with
  | leaf ps =>
    rw [under] at h
    cases pre with
    | nil =>
      rw [List.nil_append, List.cons.injEq] at h
      refine ⟨[], by rw [← h.1]; rfl, ?_⟩
      rw [← h.1, ← h.2]
      rfl
    | cons a pre => simp at h
  | inner c ih =>
    rw [under] at h
    obtain ⟨l1, i, l2, p, q, g1, g2, g3, g4⟩ := flatMap_split h
    obtain ⟨hi, hl1, hl2⟩ := range_split g1
    obtain ⟨r, k1, k2⟩ := ih (octant i) (childBoxNo b i) (i :: ds) g2
    refine ⟨i :: r, by rw [k1]; simp, ?_⟩
    rw [List.map_cons, modifyAt, under, g1, List.flatMap_append, List.flatMap_cons, Function.update_self, k2, g3, g4]
    have other : ∀ l : List Nat, (∀ j ∈ l, j < 8 ∧ j ≠ i) →
        (l.flatMap fun j => under (Function.update c (octant i) (modifyAt g (r.map octant) (c (octant i))) (octant j)) (childBoxNo b j) (j :: ds)) =
        l.flatMap fun j => under (c (octant j)) (childBoxNo b j) (j :: ds) := by
      intro l hl
      rw [List.flatMap_def, List.flatMap_def]
      congr 1
      apply List.map_congr_left
      intro j hj
      rw [Function.update_of_ne]
      exact fun hc => (hl j hj).2 (octant_inj (hl j hj).1 hi hc)
    rw [other l1, other l2]
    · simp
    · intro j hj
      rw [hl2, List.mem_range'_1] at hj
      omega
    · intro j hj
      rw [hl1, List.mem_range] at hj
      omega

theorem set_eq_of_getElem? {α : Type} {l : List α} {k : Nat} {e x : α} (h : l[k]? = some e) : l.set k x = l.take k ++ x :: l.drop (k + 1) := by
  obtain ⟨hk, -⟩ := List.getElem?_eq_some_iff.1 h
  rw [List.set_eq_take_append_cons_drop, if_pos hk]

/-- Changing the contents of the leaf number `k`. -/
theorem modify_leaf (s : OTIter P) (hs : Shallow cfg s.owned s.halo) {k : Nat} {e : Leaf P}
    (h : (allLeaves cfg s.owned s.halo)[k]? = some e) (g : List P → List P) :
    ∃ s' : OTIter P, s.modifyLeaf (encodeIndex e.1) g = .ok s' ∧ s'.vecs = s.vecs ∧ s'.inVecs = s.inVecs ∧ s'.ci = s.ci ∧ s'.pi = s.pi ∧
      s'.cur = s.cur ∧ allLeaves cfg s'.owned s'.halo = (allLeaves cfg s.owned s.halo).set k (e.1, e.2.1, g e.2.2) ∧
      (under s'.owned cfg.box [0]).length = (under s.owned cfg.box [0]).length := by
  have he := List.mem_of_getElem? h
  have hx := (encode_leaf hs he).1
  unfold OTIter.modifyLeaf
  rw [hx]
  simp only
  unfold allLeaves at h
  by_cases hk : k < (under s.owned cfg.box [0]).length
  · rw [List.getElem?_append_left hk] at h
    obtain ⟨r, g1, g2⟩ := under_modify g _ _ _ (split_of_getElem? h)
    have e1 : e.1.getLastD 0 = 0 := by rw [g1]; simp [List.getLastD_eq_getLast?]
    have e2 : e.1.dropLast.reverse.map octant = r.map octant := by rw [g1]; simp
    rw [e1, if_pos rfl, e2]
    have e3 : (under (modifyAt g (r.map octant) s.owned) cfg.box [0]).length = (under s.owned cfg.box [0]).length := by
      rw [g2, ← set_eq_of_getElem? h, List.length_set]
    refine ⟨_, rfl, rfl, rfl, rfl, rfl, rfl, ?_, e3⟩
    show under (modifyAt g (r.map octant) s.owned) cfg.box [0] ++ under s.halo cfg.haloBox [1] = _
    rw [g2, ← set_eq_of_getElem? h, allLeaves, List.set_append_left _ _ hk]
  · rw [List.getElem?_append_right (by omega)] at h
    obtain ⟨r, g1, g2⟩ := under_modify g _ _ _ (split_of_getElem? h)
    have e1 : e.1.getLastD 0 = 1 := by rw [g1]; simp [List.getLastD_eq_getLast?]
    have e2 : e.1.dropLast.reverse.map octant = r.map octant := by rw [g1]; simp
    rw [e1, if_neg (by decide), e2]
    refine ⟨_, rfl, rfl, rfl, rfl, rfl, rfl, ?_, rfl⟩
    show under s.owned cfg.box [0] ++ under (modifyAt g (r.map octant) s.halo) cfg.haloBox [1] = _
    rw [g2, ← set_eq_of_getElem? h, allLeaves, List.set_append_right _ _ (by omega)]

end
end Verif.Octree
