import Verif.Lemmas.Mapping
import Verif.Lemmas.Sliced
import Verif.Spec.LoadEstimators
import Mathlib.Data.List.Perm.Basic
import Mathlib.Data.List.Nodup
import Mathlib.Algebra.BigOperators.Group.List.Basic
/-!
# C138: load estimates count every cell of a region once, and balanced slices take their shares
-/
namespace Verif
open Spec

private theorem mem_forIncl {a b x : Nat} : x ∈ forIncl a b ↔ a ≤ x ∧ x ≤ b := by
  simp only [forIncl, List.mem_map, List.mem_range]
  constructor
  · rintro ⟨k, hk, rfl⟩; omega
  · intro h; exact ⟨x - a, by omega, by omega⟩

private theorem nodup_forIncl (a b : Nat) : (forIncl a b).Nodup :=
  (List.nodup_range).map (fun x y h => by simpa using h)

private theorem mem_regionCells {dims lower upper : V3 Nat} {i : Nat} :
    i ∈ regionCells dims lower upper ↔ ∃ c : V3 Nat, lower.x ≤ c.x ∧ c.x ≤ upper.x ∧ lower.y ≤ c.y ∧ c.y ≤ upper.y ∧ lower.z ≤ c.z ∧ c.z ≤ upper.z ∧
      threeToOneD c dims = i := by
  simp only [regionCells, List.mem_flatMap, List.mem_map, mem_forIncl]
  constructor
  · rintro ⟨x, hx, y, hy, z, hz, rfl⟩
    exact ⟨⟨x, y, z⟩, hx.1, hx.2, hy.1, hy.2, hz.1, hz.2, rfl⟩
  · rintro ⟨⟨x, y, z⟩, h1, h2, h3, h4, h5, h6, rfl⟩
    exact ⟨x, ⟨h1, h2⟩, y, ⟨h3, h4⟩, z, ⟨h5, h6⟩, rfl⟩

private theorem flat_injective {dims a b : V3 Nat} (ha : InGrid a dims) (hb : InGrid b dims) (h : threeToOneD a dims = threeToOneD b dims) : a = b := by
  rw [← oneToThreeD_threeToOneD ha, ← oneToThreeD_threeToOneD hb, h]

private theorem nodup_regionCells {dims lower upper : V3 Nat} (hu : InGrid upper dims) : (regionCells dims lower upper).Nodup := by
  obtain ⟨ux, uy, uz⟩ := hu
  have hg : ∀ x ∈ forIncl lower.x upper.x, ∀ y ∈ forIncl lower.y upper.y, ∀ z ∈ forIncl lower.z upper.z, InGrid ⟨x, y, z⟩ dims := by
    intro x hx y hy z hz
    rw [mem_forIncl] at hx hy hz
    exact ⟨by simp only; omega, by simp only; omega, by simp only; omega⟩
  unfold regionCells
  rw [List.nodup_flatMap]
  constructor
  · intro x hx
    rw [List.nodup_flatMap]
    constructor
    · intro y hy
      refine List.Nodup.map_on ?_ (nodup_forIncl _ _)
      intro z hz z' hz' h
      have := flat_injective (hg x hx y hy z hz) (hg x hx y hy z' hz') h
      injection this
    · refine List.Pairwise.imp_of_mem ?_ (nodup_forIncl lower.y upper.y)
      intro y y' hy hy' hne i h1 h2
      simp only [List.mem_map] at h1 h2
      obtain ⟨z, hz, rfl⟩ := h1
      obtain ⟨z', hz', h⟩ := h2
      have := flat_injective (hg x hx y' hy' z' hz') (hg x hx y hy z hz) h
      injection this with _ h2 _
      exact hne h2.symm
  · refine List.Pairwise.imp_of_mem ?_ (nodup_forIncl lower.x upper.x)
    intro x x' hx hx' hne i h1 h2
    simp only [List.mem_flatMap, List.mem_map] at h1 h2
    obtain ⟨y, hy, z, hz, rfl⟩ := h1
    obtain ⟨y', hy', z', hz', h⟩ := h2
    have := flat_injective (hg x' hx' y' hy' z' hz') (hg x hx y hy z hz) h
    injection this with h1 _ _
    exact hne h1.symm

private theorem mem_cellsBetween {dims lower upper : V3 Nat} {i : Nat} :
    i ∈ cellsBetween dims lower upper ↔ i < numCells dims ∧
      (lower.x ≤ (oneToThreeD i dims).x ∧ (oneToThreeD i dims).x ≤ upper.x ∧ lower.y ≤ (oneToThreeD i dims).y ∧ (oneToThreeD i dims).y ≤ upper.y ∧
        lower.z ≤ (oneToThreeD i dims).z ∧ (oneToThreeD i dims).z ≤ upper.z) := by
  simp only [cellsBetween, List.mem_filter, List.mem_range, decide_eq_true_eq]

private theorem regionCells_perm {dims lower upper : V3 Nat} (hu : InGrid upper dims) :
    (regionCells dims lower upper).Perm (cellsBetween dims lower upper) := by
  refine (List.perm_ext_iff_of_nodup (nodup_regionCells hu) (List.nodup_range.sublist List.filter_sublist)).2 ?_
  intro i
  rw [mem_regionCells]
  change _ ↔ i ∈ cellsBetween dims lower upper
  rw [mem_cellsBetween]
  obtain ⟨ux, uy, uz⟩ := hu
  constructor
  · rintro ⟨c, h1, h2, h3, h4, h5, h6, rfl⟩
    have hg : InGrid c dims := ⟨by omega, by omega, by omega⟩
    rw [oneToThreeD_threeToOneD hg]
    exact ⟨flat_lt hg, h1, h2, h3, h4, h5, h6⟩
  · rintro ⟨h0, h1, h2, h3, h4, h5, h6⟩
    exact ⟨_, h1, h2, h3, h4, h5, h6, (oneToThreeD_bounds h0).2.1⟩

private theorem foldlM_sum {L : Type} (lists : List L) (f : L → Nat) (d : L) :
    ∀ (l : List Nat) (a : Nat), (∀ i ∈ l, i < lists.length) →
      l.foldlM (fun sum i => (lists[i]?).map fun c => sum + f c) a = some (a + (l.map fun i => f (lists.getD i d)).sum) := by
  intro l
  induction l with
  | nil => intro a _; rfl
  | cons i l ih =>
    intro a h
    have hi := h i (by simp)
    rw [List.foldlM_cons]
    have e : lists[i]? = some (lists.getD i d) := by
      rw [List.getD_eq_getElem?_getD, List.getElem?_eq_getElem hi]
      rfl
    rw [e]
    show List.foldlM _ (a + f (lists.getD i d)) l = _
    rw [ih _ (fun j hj => h j (by simp [hj]))]
    simp [Nat.add_assoc]

private theorem region_sum {L : Type} (lists : List L) (f : L → Nat) (d : L) {dims lower upper : V3 Nat} (hl : lists.length = numCells dims)
    (hu : InGrid upper dims) :
    (regionCells dims lower upper).foldlM (fun sum i => (lists[i]?).map fun c => sum + f c) 0 =
      some ((cellsBetween dims lower upper).map fun i => f (lists.getD i d)).sum := by
  rw [foldlM_sum lists f d]
  · rw [Nat.zero_add, ((regionCells_perm hu).map _).sum_eq]
  · intro i hi
    rw [hl]
    exact (mem_cellsBetween.1 ((regionCells_perm hu).mem_iff.1 hi)).1

variable {P : Type}

/-- The estimate by particles is the sum over the cells of the region, each once, of the squared number of particles. -/
theorem C138_squared (cells : List (List P)) {dims lower upper : V3 Nat} (hl : cells.length = numCells dims) (hu : InGrid upper dims) :
    squaredParticlesPerCell cells dims lower upper = some ((cellsBetween dims lower upper).map fun i => (cells.getD i []).length ^ 2).sum := by
  have h := region_sum cells (fun c => c.length * c.length) [] (lower := lower) hl hu
  simpa [squaredParticlesPerCell, Nat.pow_two] using h

private theorem foldl_lengths (lists : List (P × List P)) (a : Nat) :
    lists.foldl (fun load l => load + l.2.length) a = a + (lists.map fun l => l.2.length).sum := by
  induction lists generalizing a with
  | nil => rfl
  | cons l ls ih => simp [ih, Nat.add_assoc]

/-- The estimate by neighbour lists is the sum over the cells of the region and the particles in them of the number of their neighbours. -/
theorem C138_neighbors (lists : List (List (P × List P))) {dims lower upper : V3 Nat} (hl : lists.length = numCells dims) (hu : InGrid upper dims) :
    neighborListLength cellNeighborListLength lists dims lower upper =
      some ((cellsBetween dims lower upper).map fun i => ((lists.getD i []).map fun l => l.2.length).sum).sum := by
  have h := region_sum lists cellNeighborListLength [] (lower := lower) hl hu
  rw [neighborListLength, h]
  simp only [cellNeighborListLength, foldl_lengths, Nat.zero_add]

/-- The same for pairwise lists: over all neighbour cells. -/
theorem C138_pairwise (lists : List (List (List (P × List P)))) {dims lower upper : V3 Nat} (hl : lists.length = numCells dims)
    (hu : InGrid upper dims) :
    neighborListLength cellPairwiseListLength lists dims lower upper =
      some ((cellsBetween dims lower upper).map fun i => ((lists.getD i []).flatten.map fun l => l.2.length).sum).sum := by
  have h := region_sum lists cellPairwiseListLength [] (lower := lower) hl hu
  rw [neighborListLength, h]
  have e : ∀ (ls : List (List (P × List P))) (a : Nat),
      ls.foldl (fun load l => l.foldl (fun load l => load + l.2.length) load) a = a + (ls.flatten.map fun l => l.2.length).sum := by
    intro ls
    induction ls with
    | nil => intro a; rfl
    | cons l ls ih => intro a; rw [List.foldl_cons, ih, foldl_lengths, List.flatten_cons, List.map_append, List.sum_append, Nat.add_assoc]
  simp only [cellPairwiseListLength, e, Nat.zero_add]

/-! ### The loads of the layers -/

private theorem filter_split {α : Type} (f : α → Nat) (p q r : α → Bool) (h : ∀ x, r x = (p x || q x)) (hd : ∀ x, ¬ (p x = true ∧ q x = true)) :
    ∀ l : List α, ((l.filter q).map f).sum + ((l.filter p).map f).sum = ((l.filter r).map f).sum := by
  intro l
  induction l with
  | nil => rfl
  | cons x l ih =>
    have := hd x
    cases hp : p x <;> cases hq : q x <;> simp_all <;> omega

private theorem longest_lt {dims : V3 Nat} : longestAxis dims = 0 ∨ longestAxis dims = 1 ∨ longestAxis dims = 2 := by
  unfold longestAxis
  split
  · simp
  · split <;> simp

/-- The loads that balanced slicing works with: for every layer `x` of the longest axis the sum over all cells up to this layer. In particular the last one is
the load of all cells. -/
theorem C138_layers (estimate : V3 Nat → V3 Nat → V3 Nat → Option Nat) (load : Nat → Nat) {dims : V3 Nat}
    (hd : 0 < dims.x ∧ 0 < dims.y ∧ 0 < dims.z)
    (he : ∀ lower upper, InGrid upper dims → estimate dims lower upper = some ((cellsBetween dims lower upper).map load).sum) :
    ∀ x, x < dims.get (longestAxis dims) → prefixLoad estimate dims x = some ((cellsUpTo dims (longestAxis dims) x).map load).sum := by
  obtain ⟨dx, dy, dz⟩ := hd
  have hlayer : ∀ x, x < dims.get (longestAxis dims) → layerLoad estimate dims x =
      some (((List.range (numCells dims)).filter fun i => decide ((oneToThreeD i dims).get (longestAxis dims) = x)).map load).sum := by
    intro x hx
    unfold layerLoad
    rw [he]
    · congr 3
      unfold cellsBetween
      refine List.filter_congr ?_
      intro i hi
      obtain ⟨hb1, hb2, hb3⟩ := (oneToThreeD_bounds (List.mem_range.1 hi)).1
      rw [decide_eq_decide]
      rcases longest_lt (dims := dims) with h | h | h <;> simp only [h, V3.set, V3.get, if_true, if_false] <;> simp <;> omega
    · unfold InGrid
      rcases longest_lt (dims := dims) with h | h | h <;> simp only [h, V3.set, V3.get] at hx ⊢ <;> simp at hx ⊢ <;> omega
  intro x
  induction x with
  | zero =>
    intro hx
    rw [prefixLoad, hlayer 0 hx]
    simp [cellsUpTo]
  | succ x ih =>
    intro hx
    rw [prefixLoad, ih (by omega), hlayer (x + 1) hx]
    simp only [Option.bind_some, Option.map_some, cellsUpTo]
    rw [filter_split load (fun i => decide ((oneToThreeD i dims).get (longestAxis dims) ≤ x)) _
      (fun i => decide ((oneToThreeD i dims).get (longestAxis dims) ≤ x + 1))]
    · intro i
      rw [← Bool.decide_or, decide_eq_decide]
      omega
    · intro i
      simp only [decide_eq_true_eq]
      omega

/-- All cells are up to the last layer. -/
theorem C138_total {dims : V3 Nat} (hd : 0 < dims.get (longestAxis dims)) :
    cellsUpTo dims (longestAxis dims) (dims.get (longestAxis dims) - 1) = List.range (numCells dims) := by
  unfold cellsUpTo
  rw [List.filter_eq_self]
  intro i hi
  obtain ⟨hb1, hb2, hb3⟩ := (oneToThreeD_bounds (List.mem_range.1 hi)).1
  rw [decide_eq_true_eq]
  rcases longest_lt (dims := dims) with h | h | h <;> simp only [h, V3.get] at hd ⊢ <;> simp at hd ⊢ <;> omega

/-! ### The slices -/

private theorem sub64_le {a b : Nat} (h : b ≤ a) (ha : a < 2 ^ 31) : sub64 a b = a - b := by
  unfold sub64
  omega

private theorem throughInt_small {a : Nat} (ha : a < 2 ^ 31) : throughInt a = a := by
  unfold throughInt
  have : a % 2 ^ 32 = a := Nat.mod_eq_of_lt (by omega)
  rw [this, if_pos ha]

private theorem absDiff_lt {a l l' : Nat} (h : l < a) (hl : l ≤ l') (hd : absDiff a l < absDiff a l') : a - l < l' - a := by
  unfold absDiff at hd
  split at hd <;> split at hd <;> omega

/-- Loads summed up to each of `n` layers that fit into an `int`. -/
structure SummedLoads (loads : Nat → Nat) (n : Nat) : Prop where
  mono : ∀ i j, i ≤ j → j < n → loads i ≤ loads j
  small : loads (n - 1) < 2 ^ 31

private theorem loadBefore_le {loads : Nat → Nat} {n : Nat} (h : SummedLoads loads n) {a b : Nat} (hab : a ≤ b) (hb : b ≤ n) :
    loadBefore loads a ≤ loadBefore loads b := by
  unfold loadBefore
  split
  · omega
  · rw [if_neg (by omega)]
    exact h.mono _ _ (by omega) (by omega)

private theorem loadBefore_lt {loads : Nat → Nat} {n : Nat} (h : SummedLoads loads n) {b : Nat} (hb : b ≤ n) : loadBefore loads b < 2 ^ 31 := by
  unfold loadBefore
  split
  · omega
  · exact Nat.lt_of_le_of_lt (h.mono (b - 1) (n - 1) (by omega) (by omega)) h.small

private theorem grow_spec {loads : Nat → Nat} {n total avg : Nat} (h : SummedLoads loads n) (m t : Nat) (h1 : 1 ≤ m) (hm : m ≤ t)
    (ht : t = m ∨ (m < t ∧ loadBefore loads (total + (t - 1)) - loadBefore loads total < avg)) :
    let r := balancedGrow loads n total avg (loadBefore loads total) t
    (r = m ∨ (m < r ∧ loadBefore loads (total + (r - 1)) - loadBefore loads total < avg)) ∧
    (avg ≤ loadBefore loads (total + r) - loadBefore loads total ∨
      (avg - (loadBefore loads (total + r) - loadBefore loads total) < (loadBefore loads (total + (r + 1)) - loadBefore loads total) - avg) ∨
      n ≤ total + r + 1) := by
  have e : ∀ t, 1 ≤ t → total + t + 1 < n →
      sub64 (loads (total + t - 1)) (loadBefore loads total) = loadBefore loads (total + t) - loadBefore loads total ∧
      sub64 (loads (total + t)) (loadBefore loads total) = loadBefore loads (total + (t + 1)) - loadBefore loads total := by
    intro t h1 h2
    have e1 : loads (total + t - 1) = loadBefore loads (total + t) := by unfold loadBefore; rw [if_neg (by omega)]
    have e2 : loads (total + t) = loadBefore loads (total + (t + 1)) := by
      unfold loadBefore; rw [if_neg (by omega)]; congr 1
    rw [e1, e2]
    exact ⟨sub64_le (loadBefore_le h (by omega) (by omega)) (loadBefore_lt h (by omega)),
      sub64_le (loadBefore_le h (by omega) (by omega)) (loadBefore_lt h (by omega))⟩
  fun_induction balancedGrow loads n total avg (loadBefore loads total) t with
  | case1 t h' hd =>
    refine ⟨ht, Or.inr (Or.inl ?_)⟩
    obtain ⟨e1, e2⟩ := e t (by omega) h'.1
    rw [e1, e2] at hd
    have h2 := h'.2
    rw [e1] at h2
    exact absDiff_lt h2 (Nat.sub_le_sub_right (loadBefore_le h (by omega) (by omega)) _) hd
  | case2 t h' hd ih =>
    refine ih (by omega) (Or.inr ⟨by omega, ?_⟩)
    have h2 := h'.2
    rw [(e t (by omega) h'.1).1] at h2
    exact h2
  | case3 t h' =>
    refine ⟨ht, ?_⟩
    by_cases hn : total + t + 1 < n
    · left
      have h2 : ¬ (sub64 (loads (total + t - 1)) (loadBefore loads total) < avg) := fun hx => h' ⟨hn, hx⟩
      rw [(e t (by omega) hn).1] at h2
      omega
    · omega

private theorem share_congr {loads : Nat → Nat} {n m threads s : Nat} {a b : List Nat} (h1 : a.take s = b.take s) (h2 : a.getD s 0 = b.getD s 0)
    (h : TakesItsShare loads n m threads a s) : TakesItsShare loads n m threads b s := by
  unfold TakesItsShare at *
  rw [← h1, ← h2]
  exact h

private theorem loop_share {loads : Nat → Nat} {n m threads : Nat} (h : SummedLoads loads n) (hm : 1 ≤ m) :
    ∀ (k total avg last : Nat) (acc thick : List Nat), balancedLoop loads n m k total avg last acc = some thick → acc.sum = total → total ≤ n →
      acc.length + k = threads →
      (k ≠ 0 → avg = (loads (n - 1) - loadBefore loads total) / k ∧ last = loadBefore loads total) →
      (∀ s, s < acc.length → (k = 0 → s + 1 < acc.length) → TakesItsShare loads n m threads acc s) →
      ∀ s, s + 1 < thick.length → TakesItsShare loads n m threads thick s := by
  intro k
  induction k with
  | zero =>
    intro total avg last acc thick hb _ _ _ _ hs s hl
    simp only [balancedLoop, Option.some.injEq] at hb
    subst hb
    exact hs s (by omega) (fun _ => hl)
  | succ k ih =>
    intro total avg last acc thick hb hsum htot hlen hinv hs
    obtain ⟨ha, hlast⟩ := hinv (by omega)
    unfold balancedLoop at hb
    simp only at hb
    generalize htdef : (if k = 0 then n - total else balancedGrow loads n total avg last m) = t at hb
    by_cases hc : total + t > n ∨ t < m
    · rw [if_pos hc] at hb
      rcases List.eq_nil_or_concat acc with hnil | ⟨init, l, rfl⟩
      · subst hnil
        simp at hb
      · simp only [List.concat_eq_append] at *
        simp only [List.getLast?_append, List.getLast?_singleton, Option.some_or, Option.map_some, List.dropLast_concat, Option.some.injEq] at hb
        subst hb
        intro s hl
        simp only [List.length_append, List.length_cons, List.length_nil] at hl
        have hsi : s < init.length := by omega
        refine share_congr ?_ ?_ (hs s (by simp; omega) (by omega))
        · rw [List.take_append_of_le_length (by omega), List.take_append_of_le_length (by omega)]
        · rw [List.getD_append _ _ _ _ hsi, List.getD_append _ _ _ _ hsi]
    · rw [if_neg hc] at hb
      refine ih _ _ _ _ _ hb (by simp [hsum]) (by omega) (by simp; omega) ?_ ?_
      · intro hk
        rw [if_neg hk, if_neg hk]
        have e1 : loads (total + t - 1) = loadBefore loads (total + t) := by unfold loadBefore; rw [if_neg (by omega)]
        rw [e1, throughInt_small (loadBefore_lt h (by omega)), sub64_le ?_ h.small]
        · exact ⟨rfl, rfl⟩
        · have hn : loads (n - 1) = loadBefore loads n := by unfold loadBefore; rw [if_neg (by omega)]
          rw [hn]
          exact loadBefore_le h (by omega) (by omega)
      · intro s hl hk0
        simp only [List.length_append, List.length_cons, List.length_nil] at hl hk0
        by_cases hsa : s < acc.length
        · refine share_congr ?_ ?_ (hs s hsa (by omega))
          · rw [List.take_append_of_le_length (by omega)]
          · rw [List.getD_append _ _ _ _ hsa]
        · have hse : s = acc.length := by omega
          subst hse
          have hk : k ≠ 0 := fun h0 => by have := hk0 h0; omega
          rw [if_neg hk, hlast] at htdef
          unfold TakesItsShare
          have e1 : ((acc ++ [t]).take acc.length).sum = total := by rw [List.take_left, hsum]
          have e2 : (acc ++ [t]).getD acc.length 0 = t := by simp
          have e3 : threads - acc.length = k + 1 := by omega
          simp only [e1, e2, e3]
          have := grow_spec (total := total) (avg := avg) h m m hm (Nat.le_refl _) (Or.inl rfl)
          simp only [htdef] at this
          rw [← ha]
          exact this

/-- Balanced slicing with loads that fit into an `int`: every slice but the last takes its share. The last one takes what is left. Missing: larger loads, see
`C138_violated_int`. -/
theorem C138_balanced_partial {loads : Nat → Nat} {n m ov threads : Nat} (h : SummedLoads loads n) (hm : 1 ≤ m) (hmn : m ≤ n) (ht : 1 ≤ threads)
    (forward : Bool) :
    ∃ thick, balancedSliceThickness loads forward n m ov threads = some thick ∧
      ∀ s, s + 1 < thick.length → TakesItsShare loads n m threads thick s := by
  obtain ⟨thick, h1, -⟩ := balancedSliceThickness_slices (loads := loads) (forward := forward) (ov := ov) hmn ht
  refine ⟨thick, h1, ?_⟩
  unfold balancedSliceThickness at h1
  rw [Option.map_eq_some_iff] at h1
  obtain ⟨l, h2, rfl⟩ := h1
  have hl := loop_share (threads := threads) h hm threads 0 _ 0 [] l h2 rfl (by omega) (by simp) (fun _ => ⟨by simp [loadBefore], by simp [loadBefore]⟩) (by simp)
  intro s hs
  unfold shortenLast at hs ⊢
  cases forward with
  | false => exact hl s hs
  | true =>
    simp only [if_true] at hs ⊢
    rcases List.eq_nil_or_concat l with hnil | ⟨init, a, rfl⟩
    · subst hnil
      simp at hs
    · simp only [List.concat_eq_append] at *
      simp only [List.dropLast_concat, List.getLast?_append, List.getLast?_singleton, Option.some_or, Option.map_some, Option.toList_some,
        List.length_append, List.length_cons, List.length_nil] at hs ⊢
      have hsi : s < init.length := by omega
      refine share_congr ?_ ?_ (hl s (by simp; omega))
      · rw [List.take_append_of_le_length (by omega), List.take_append_of_le_length (by omega)]
      · rw [List.getD_append _ _ _ _ hsi, List.getD_append _ _ _ _ hsi]

/-- Twelve layers with the same load of 2^30 each and four threads: `lastLoad` is an `int`, and the last thread gets most of the layers. -/
theorem C138_violated_int :
    balancedSliceThickness (fun i => 2 ^ 30 * (i + 1)) false 12 1 1 4 = some [3, 1, 1, 7] ∧
    ¬ TakesItsShare (fun i => 2 ^ 30 * (i + 1)) 12 1 4 [3, 1, 1, 7] 1 := by
  refine ⟨by decide +kernel, ?_⟩
  unfold TakesItsShare
  decide +kernel

/-- The same with loads of 10 each. -/
example : balancedSliceThickness (fun i => 10 * (i + 1)) false 12 1 1 4 = some [3, 3, 3, 3] := by decide +kernel

example : SummedLoads (fun i => 10 * (i + 1)) 12 := ⟨fun i j h _ => by omega, by decide⟩

/-- Two by two by three cells: the upper layers of the longest axis. -/
example : squaredParticlesPerCell ((List.range 12).map fun i => List.replicate i ()) ⟨2, 2, 3⟩ ⟨0, 0, 1⟩ ⟨1, 1, 2⟩ = some 492 := by decide +kernel

example : InGrid ⟨1, 1, 2⟩ ⟨2, 2, 3⟩ ∧ ((List.range 12).map fun i => List.replicate i ()).length = numCells ⟨2, 2, 3⟩ := by decide

end Verif
