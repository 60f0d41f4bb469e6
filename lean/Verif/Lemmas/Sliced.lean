import Verif.Lemmas.SlicedInv
import Verif.Lemmas.LCC04
import Mathlib.Data.List.Perm.Basic
import Mathlib.Data.List.GetD
import Mathlib.Algebra.BigOperators.Group.List.Basic
import Mathlib.Algebra.Module.NatInt
/-!
Slice thicknesses and coverage of the sliced traversals.
-/
namespace Verif
open Spec

theorem sum_addRest (l : List Nat) : ∀ k rest, k ≤ l.length → (k = 0 → rest = 0) →
    (addRest k rest l).sum = l.sum + rest := by
  induction l with
  | nil =>
    intro k rest hk h0
    have : k = 0 := by simpa using hk
    subst this
    simp [addRest, h0 rfl]
  | cons t l ih =>
    intro k rest hk h0
    cases k with
    | zero => simp [addRest, h0 rfl]
    | succ k =>
      simp only [addRest, List.sum_cons]
      have hle : rest / (k + 1) ≤ rest := Nat.div_le_self _ _
      rw [ih k _ (by simpa using hk) (by rintro rfl; simp)]
      omega

theorem length_addRest (l : List Nat) : ∀ k rest, (addRest k rest l).length = l.length := by
  induction l with
  | nil => intro k rest; cases k <;> rfl
  | cons t l ih => intro k rest; cases k <;> simp [addRest, ih]

theorem addRest_ge {m : Nat} (l : List Nat) : ∀ k rest, (∀ x ∈ l, m ≤ x) → ∀ x ∈ addRest k rest l, m ≤ x := by
  induction l with
  | nil => intro k rest h; cases k <;> exact h
  | cons t l ih =>
    intro k rest h
    cases k with
    | zero => exact h
    | succ k =>
      simp only [addRest, List.mem_cons, forall_eq_or_imp]
      have := h t (by simp)
      exact ⟨le_trans this (Nat.le_add_right _ _), ih k _ (fun x hx => h x (by simp [hx]))⟩

/-- What every slice computation has to deliver for `n` layers: slices of at least the minimum thickness that sum up
to `n`, the last one then shortened by the overlap if base cells only interact forward. -/
def SlicesOf (forward : Bool) (n minThickness ov : Nat) (thick : List Nat) : Prop :=
  ∃ l : List Nat, l ≠ [] ∧ l.sum = n ∧ (∀ x ∈ l, minThickness ≤ x) ∧ thick = shortenLast forward ov l

theorem sliceThickness_slices {forward : Bool} {n m ov : Nat} (hm : 0 < m) (hn : m ≤ n) :
    SlicesOf forward n m ov (sliceThickness forward n m ov) := by
  have h1 : 1 ≤ n / m := (Nat.one_le_div_iff hm).2 hn
  unfold sliceThickness
  simp only
  rw [if_neg (by omega)]
  refine ⟨addRest (min (n - m * (n / m)) (n / m)) (n - m * (n / m)) (List.replicate (n / m) m), ?_, ?_, ?_, rfl⟩
  · intro h
    have := congrArg List.length h
    rw [length_addRest] at this
    simp at this
    omega
  · rw [sum_addRest _ _ _ (by simp) (by omega)]
    simp only [List.sum_replicate, smul_eq_mul]
    have := Nat.mul_div_le n m
    have e : n / m * m = m * (n / m) := Nat.mul_comm _ _
    omega
  · apply addRest_ge
    intro x hx
    rw [List.eq_of_mem_replicate hx]

theorem balancedGrow_ge (loads : Nat → Nat) (n total avg lastLoad t : Nat) :
    t ≤ balancedGrow loads n total avg lastLoad t := by
  fun_induction balancedGrow loads n total avg lastLoad t with
  | case1 => exact le_refl _
  | case2 t _ _ ih => omega
  | case3 => exact le_refl _

theorem balancedLoop_spec {loads : Nat → Nat} {n m : Nat} (hmn : m ≤ n) (k : Nat) :
    ∀ total avg lastLoad acc, acc.sum = total → total ≤ n → (∀ x ∈ acc, m ≤ x) →
      ∃ l, balancedLoop loads n m (k + 1) total avg lastLoad acc = some l ∧ l ≠ [] ∧ l.sum = n ∧ ∀ x ∈ l, m ≤ x := by
  induction k with
  | zero =>
    intro total avg lastLoad acc hs hn ha
    unfold balancedLoop
    simp only [if_true]
    by_cases hc : total + (n - total) > n ∨ n - total < m
    · rw [if_pos hc]
      rcases List.eq_nil_or_concat acc with h | ⟨init, a, rfl⟩
      · subst h
        simp at hs
        omega
      · simp only [List.concat_eq_append] at *
        simp only [List.getLast?_append, List.getLast?_singleton, Option.some_or, Option.map_some, List.dropLast_concat]
        simp only [List.sum_append, List.sum_cons, List.sum_nil] at hs
        refine ⟨_, rfl, by simp, by simp; omega, ?_⟩
        simp only [List.mem_append, List.mem_singleton]
        rintro x (hx | rfl)
        · exact ha x (by simp [hx])
        · have := ha a (by simp)
          omega
    · rw [if_neg hc]
      unfold balancedLoop
      refine ⟨_, rfl, by simp, by simp; omega, ?_⟩
      simp only [List.mem_append, List.mem_singleton]
      rintro x (hx | rfl)
      · exact ha x hx
      · omega
  | succ k ih =>
    intro total avg lastLoad acc hs hn ha
    unfold balancedLoop
    simp only [Nat.succ_ne_zero, if_false]
    have hge := balancedGrow_ge loads n total avg lastLoad m
    by_cases hc : total + balancedGrow loads n total avg lastLoad m > n ∨ balancedGrow loads n total avg lastLoad m < m
    · rw [if_pos hc]
      have hgrow : balancedGrow loads n total avg lastLoad m ≤ max m (n - total) := by
        clear hc ih
        generalize m = t at *
        clear hge hmn ha
        fun_induction balancedGrow loads n total avg lastLoad t with
        | case1 t h h' => omega
        | case2 t h h' ih => omega
        | case3 t h => omega
      rcases List.eq_nil_or_concat acc with h | ⟨init, a, rfl⟩
      · subst h
        simp at hs
        omega
      · simp only [List.concat_eq_append] at *
        simp only [List.getLast?_append, List.getLast?_singleton, Option.some_or, Option.map_some, List.dropLast_concat]
        simp only [List.sum_append, List.sum_cons, List.sum_nil] at hs
        refine ⟨_, rfl, by simp, by simp; omega, ?_⟩
        simp only [List.mem_append, List.mem_singleton]
        rintro x (hx | rfl)
        · exact ha x (by simp [hx])
        · have := ha a (by simp)
          omega
    · rw [if_neg hc]
      refine ih _ _ _ _ (by simp; omega) (by omega) ?_
      simp only [List.mem_append, List.mem_singleton]
      rintro x (hx | rfl)
      · exact ha x hx
      · exact hge

theorem balancedSliceThickness_slices {loads : Nat → Nat} {forward : Bool} {n m ov threads : Nat} (hn : m ≤ n)
    (ht : 1 ≤ threads) :
    ∃ thick, balancedSliceThickness loads forward n m ov threads = some thick ∧ SlicesOf forward n m ov thick := by
  obtain ⟨k, rfl⟩ : ∃ k, threads = k + 1 := ⟨threads - 1, by omega⟩
  obtain ⟨l, h1, h2, h3, h4⟩ := balancedLoop_spec (loads := loads) hn k 0 (loads (n - 1) / (k + 1)) 0 [] rfl (by omega)
    (by simp)
  unfold balancedSliceThickness
  rw [h1]
  exact ⟨_, rfl, l, h2, h3, h4, rfl⟩

theorem shortenLast_concat (ov a : Nat) (init : List Nat) : shortenLast true ov (init ++ [a]) = init ++ [a - ov] := by
  unfold shortenLast
  simp

theorem SlicesOf.sum {n m ov : Nat} {thick : List Nat} (h : SlicesOf true n m ov thick) (hm : ov ≤ m) :
    thick.sum = n - ov := by
  obtain ⟨l, h1, h2, h3, rfl⟩ := h
  rcases List.eq_nil_or_concat l with e | ⟨init, a, rfl⟩
  · exact absurd e h1
  · simp only [List.concat_eq_append] at *
    rw [shortenLast_concat]
    have := h3 a (by simp)
    simp at h2 ⊢
    omega

theorem SlicesOf.thick_ge {forward : Bool} {n m ov : Nat} {thick : List Nat} (h : SlicesOf forward n m ov thick) {s : Nat}
    (hs : s + 1 < thick.length) : m ≤ thick.getD s 0 := by
  obtain ⟨l, h1, h2, h3, rfl⟩ := h
  rcases List.eq_nil_or_concat l with e | ⟨init, a, rfl⟩
  · exact absurd e h1
  · simp only [List.concat_eq_append] at *
    cases forward with
    | true =>
      rw [shortenLast_concat] at hs ⊢
      have hs : s < init.length := by simpa using hs
      rw [List.getD_append _ _ _ _ hs, List.getD_eq_getElem _ _ hs]
      exact h3 _ (by simp)
    | false =>
      simp only [shortenLast] at hs ⊢
      have hs : s < init.length := by simpa using hs
      have : s < (init ++ [a]).length := by simp; omega
      simp only [Bool.false_eq_true, if_false]
      rw [List.getD_eq_getElem _ _ this]
      exact h3 _ (List.getElem_mem _)

theorem SlicesOf.good {forward : Bool} {n ov : Nat} {thick : List Nat} (h : SlicesOf forward n (ov + 1) ov thick) : GoodThick ov thick := by
  refine ⟨fun s hs => h.thick_ge hs, fun _ => ?_⟩
  obtain ⟨l, h1, h2, h3, rfl⟩ := h
  rcases List.eq_nil_or_concat l with e | ⟨init, a, rfl⟩
  · exact absurd e h1
  · simp only [List.concat_eq_append] at *
    have := h3 a (by simp)
    cases forward with
    | true =>
      rw [shortenLast_concat]
      simp [List.getD_eq_getElem?_getD]
      omega
    | false =>
      simp [shortenLast, List.getD_eq_getElem?_getD]
      omega

theorem SlicesOf.ne_nil {forward : Bool} {n m ov : Nat} {thick : List Nat} (h : SlicesOf forward n m ov thick) : thick ≠ [] := by
  obtain ⟨l, h1, h2, h3, rfl⟩ := h
  rcases List.eq_nil_or_concat l with e | ⟨init, a, rfl⟩
  · exact absurd e h1
  · cases forward <;> simp [shortenLast]

/-- Consecutive slices cover all layers, each once, in order. -/
theorem slices_layers (thick : List Nat) :
    (List.range thick.length).flatMap (sliceLayers thick) = List.range thick.sum := by
  have key : ∀ k ≤ thick.length, (List.range k).flatMap (sliceLayers thick) = List.range (sliceStart thick k) := by
    intro k
    induction k with
    | zero => intro _; simp [sliceStart]
    | succ k ih =>
      intro hk
      rw [List.range_succ, List.flatMap_append, ih (by omega), sliceStart_succ (by omega), List.range_add]
      simp [sliceLayers]
  rw [key _ (le_refl _)]
  simp [sliceStart]

theorem processed_append (a b : List SliceAct) : processed (a ++ b) = processed a ++ processed b := by
  induction a with
  | nil => rfl
  | cons x a ih => cases x <;> simp [processed, ih]

theorem processed_locks (f : Nat → Nat) (L : List Nat) : processed (L.map fun i => .lock (f i)) = [] := by
  induction L with
  | nil => rfl
  | cons x L ih => simpa [processed] using ih

theorem processed_unlocks (f : Nat → Nat) (L : List Nat) : processed (L.map fun i => .unlock (f i)) = [] := by
  induction L with
  | nil => rfl
  | cons x L ih => simpa [processed] using ih

theorem processed_layerActs (ov num st t s o : Nat) : processed (layerActs ov num st t s o) = [st + o] := by
  unfold layerActs endLock releases
  rw [processed_append]
  have h1 : processed (if s ≠ num - 1 ∧ o + ov ≥ t then [SliceAct.lock ((s + 1) * ov - (t - o))] else []) = [] := by
    split <;> rfl
  rw [h1]
  simp only [processed, List.nil_append, List.cons.injEq, true_and]
  split
  · simp only [processed]
    split
    · exact processed_unlocks _ _
    · rfl
  · split
    · exact processed_unlocks _ _
    · rfl

theorem processed_sliceProgram (ov : Nat) (thick : List Nat) (s : Nat) :
    processed (sliceProgram ov thick s) = sliceLayers thick s := by
  unfold sliceProgram sliceLayers
  rw [processed_append]
  have h1 : processed (startLocks ov s) = [] := by
    unfold startLocks
    split
    · exact processed_locks _ _
    · rfl
  rw [h1, List.nil_append]
  generalize thick.getD s 0 = t
  have key : ∀ o, processed ((List.range o).flatMap (layerActs ov thick.length (sliceStart thick s) t s)) =
      (List.range o).map (sliceStart thick s + ·) := by
    intro o
    induction o with
    | zero => rfl
    | succ o ih =>
      rw [List.range_succ, List.flatMap_append, processed_append, ih, List.map_append]
      simp [processed_layerActs]
  exact key t

/-- The sorted axes are a permutation of the three axes, the first of them is a longest one. -/
theorem axes_spec (d : V3 Nat) :
    (longestAxis d < 3 ∧ mediumAxis d < 3 ∧ shortestAxis d < 3) ∧
    (longestAxis d ≠ mediumAxis d ∧ longestAxis d ≠ shortestAxis d ∧ mediumAxis d ≠ shortestAxis d) ∧
    ∀ i < 3, d.get (shortestAxis d) ≤ d.get i ∧ d.get i ≤ d.get (longestAxis d) := by
  unfold mediumAxis longestAxis shortestAxis V3.get
  refine ⟨?_, ?_, ?_⟩
  · split_ifs <;> omega
  · split_ifs <;> omega
  · intro i hi
    have : i = 0 ∨ i = 1 ∨ i = 2 := by omega
    rcases this with rfl | rfl | rfl <;> (split_ifs <;> omega)

theorem mem_layerBases {dims ov : V3 Nat} {layer : Nat} {c : V3 Nat} :
    c ∈ layerBases true dims ov layer ↔ c.get (longestAxis dims) = layer ∧
      c.get (mediumAxis dims) < dims.get (mediumAxis dims) - ov.get (mediumAxis dims) ∧
      c.get (shortestAxis dims) < dims.get (shortestAxis dims) - ov.get (shortestAxis dims) := by
  obtain ⟨⟨h1, h2, h3⟩, ⟨h4, h5, h6⟩, -⟩ := axes_spec dims
  unfold layerBases
  simp only [overlaps23, if_true, List.mem_flatMap, List.mem_map, mem_forUp_one, Nat.zero_le, true_and]
  unfold idArrayAt
  generalize longestAxis dims = a at *
  generalize mediumAxis dims = b at *
  generalize shortestAxis dims = e at *
  have ha : a = 0 ∨ a = 1 ∨ a = 2 := by omega
  have hb : b = 0 ∨ b = 1 ∨ b = 2 := by omega
  have he : e = 0 ∨ e = 1 ∨ e = 2 := by omega
  obtain ⟨cx, cy, cz⟩ := c
  constructor
  · rintro ⟨m, hm, s, hs, hc⟩
    rcases ha with rfl | rfl | rfl <;> rcases hb with rfl | rfl | rfl <;> rcases he with rfl | rfl | rfl <;>
      first
        | omega
        | (simp [V3.get] at hc hm hs ⊢; omega)
  · rintro ⟨h7, h8, h9⟩
    refine ⟨_, h8, _, h9, ?_⟩
    rcases ha with rfl | rfl | rfl <;> rcases hb with rfl | rfl | rfl <;> rcases he with rfl | rfl | rfl <;>
      first
        | omega
        | (simp [V3.get] at h7 ⊢; omega)

theorem nodup_layerBases (dims ov : V3 Nat) (layer : Nat) : (layerBases true dims ov layer).Nodup := by
  obtain ⟨⟨h1, h2, h3⟩, ⟨h4, h5, h6⟩, -⟩ := axes_spec dims
  unfold layerBases
  refine nodup_flatMap_key (fun c => c.get (mediumAxis dims)) (nodup_forUp _ _ _) (fun m hm => ?_) (fun m _ c hc => ?_)
  · refine List.Nodup.map_on ?_ (nodup_forUp _ _ _)
    intro s _ s' _ hq
    unfold idArrayAt at hq
    generalize longestAxis dims = a at *
    generalize mediumAxis dims = b at *
    generalize shortestAxis dims = e at *
    have ha : a = 0 ∨ a = 1 ∨ a = 2 := by omega
    have hb : b = 0 ∨ b = 1 ∨ b = 2 := by omega
    have he : e = 0 ∨ e = 1 ∨ e = 2 := by omega
    rcases ha with rfl | rfl | rfl <;> rcases hb with rfl | rfl | rfl <;> rcases he with rfl | rfl | rfl <;>
      first
        | omega
        | (simp at hq; omega)
  · rw [List.mem_map] at hc
    obtain ⟨s, -, rfl⟩ := hc
    unfold idArrayAt
    generalize longestAxis dims = a at *
    generalize mediumAxis dims = b at *
    generalize shortestAxis dims = e at *
    have ha : a = 0 ∨ a = 1 ∨ a = 2 := by omega
    have hb : b = 0 ∨ b = 1 ∨ b = 2 := by omega
    have he : e = 0 ∨ e = 1 ∨ e = 2 := by omega
    rcases ha with rfl | rfl | rfl <;> rcases hb with rfl | rfl | rfl <;> rcases he with rfl | rfl | rfl <;>
      first
        | omega
        | simp [V3.get]

theorem nodup_layers (dims ov : V3 Nat) (k : Nat) : ((List.range k).flatMap (layerBases true dims ov)).Nodup :=
  nodup_flatMap_key (fun c => c.get (longestAxis dims)) List.nodup_range (fun _ _ => nodup_layerBases _ _ _)
    (fun _ _ _ hc => (mem_layerBases.1 hc).1)

theorem mem_layers {dims ov : V3 Nat} {c : V3 Nat} :
    c ∈ (List.range (dims.get (longestAxis dims) - ov.get (longestAxis dims))).flatMap (layerBases true dims ov) ↔
      c ∈ (c08Bases dims ov).flatten := by
  rw [c08Bases_mem, List.mem_flatMap]
  simp only [mem_layerBases, List.mem_range]
  obtain ⟨⟨h1, h2, h3⟩, ⟨h4, h5, h6⟩, -⟩ := axes_spec dims
  generalize longestAxis dims = a at *
  generalize mediumAxis dims = b at *
  generalize shortestAxis dims = e at *
  have ha : a = 0 ∨ a = 1 ∨ a = 2 := by omega
  have hb : b = 0 ∨ b = 1 ∨ b = 2 := by omega
  have he : e = 0 ∨ e = 1 ∨ e = 2 := by omega
  constructor
  · rintro ⟨l, hl, h7, h8, h9⟩
    subst h7
    rcases ha with rfl | rfl | rfl <;> rcases hb with rfl | rfl | rfl <;> rcases he with rfl | rfl | rfl <;>
      first
        | omega
        | (simp [V3.get] at hl h8 h9 ⊢; omega)
  · rintro h
    refine ⟨_, ?_, rfl, ?_, ?_⟩ <;>
    (rcases ha with rfl | rfl | rfl <;> rcases hb with rfl | rfl | rfl <;> rcases he with rfl | rfl | rfl <;>
      first
        | omega
        | (simp [V3.get] at h ⊢; omega))

end Verif
