import Verif.Lemmas.VerletClusterCalls
import Verif.Lemmas.LCRegion
/-! Which pairs of clusters are processed. -/
namespace Verif
open Spec

/-! ### Owned clusters of a tower -/

/-- What the scan for owned clusters has found after `n` clusters. -/
structure ScanFacts (f : Nat → Bool) (n : Nat) (s : Option Nat × Option Nat) : Prop where
  notFound : s.1 = none → s.2 = none ∧ ∀ i < n, f i = false
  found : ∀ m, s.1 = some m → m < n ∧ f m = true ∧ ∀ i < m, f i = false
  open_ : ∀ m, s.1 = some m → s.2 = none → ∀ i, m ≤ i → i < n → f i = true
  closed : ∀ t, s.2 = some t → ∃ m, s.1 = some m ∧ m < t ∧ t < n ∧ f t = false ∧ ∀ i, m ≤ i → i < t → f i = true

theorem vclScan_facts (f : Nat → Bool) (n : Nat) : ScanFacts f n (vclScan f n) := by
  induction n with
  | zero =>
    unfold vclScan
    exact ⟨fun _ => ⟨rfl, fun i hi => by omega⟩, fun m h => by simp at h, fun m h => by simp at h, fun t h => by simp at h⟩
  | succ n ih =>
    unfold vclScan at *
    rw [List.range_succ, List.foldl_append, List.foldl_cons, List.foldl_nil]
    generalize (List.range n).foldl _ (_, _) = s at *
    obtain ⟨s1, s2⟩ := s
    obtain ⟨i1, i2, i3, i4⟩ := ih
    cases s2 with
    | some t =>
      obtain ⟨m, e, h⟩ := i4 t rfl
      simp only at e
      subst e
      simp only [Option.isNone_some, Bool.false_and, Bool.and_false, if_neg (show ¬ false = true by decide)]
      refine ⟨fun h => by simp at h, ?_, fun _ _ h => by simp at h, ?_⟩
      · intro m' hm'
        obtain ⟨a, b, c⟩ := i2 m' hm'
        exact ⟨by omega, b, c⟩
      · intro t' ht'
        simp only [Option.some.injEq] at ht'
        subst ht'
        exact ⟨m, rfl, h.1, by omega, h.2.2⟩
    | none =>
      cases s1 with
      | none =>
        have h0 := (i1 rfl).2
        cases hf : f n
        · simp only [hf]
          refine ⟨fun _ => ⟨rfl, ?_⟩, fun m h => by simp at h, fun m h => by simp at h, fun t h => by simp at h⟩
          intro i hi
          by_cases h : i = n
          · rw [h]; exact hf
          · exact h0 i (by omega)
        · simp only [hf]
          refine ⟨fun h => by simp at h, ?_, ?_, fun t h => by simp at h⟩
          · intro m hm
            have : n = m := by simpa using hm
            subst this
            exact ⟨by omega, hf, h0⟩
          · intro m hm _ i h1 h2
            have : n = m := by simpa using hm
            subst this
            have : i = n := by omega
            rw [this]; exact hf
      | some m =>
        obtain ⟨a, b, c⟩ := i2 m rfl
        have d := i3 m rfl rfl
        cases hf : f n
        · simp only [hf]
          refine ⟨fun h => by simp at h, ?_, fun m' _ h => by simp at h, ?_⟩
          · intro m' hm'
            have : m = m' := by simpa using hm'
            subst this
            exact ⟨by omega, b, c⟩
          · intro t ht
            have : n = t := by simpa using ht
            subst this
            exact ⟨m, by simp, a, by omega, hf, d⟩
        · simp only [hf]
          refine ⟨fun h => by simp at h, ?_, ?_, fun t h => by simp at h⟩
          · intro m' hm'
            have : m = m' := by simpa using hm'
            subst this
            exact ⟨by omega, b, c⟩
          · intro m' hm' _ i h1 h2
            have : m = m' := by simpa using hm'
            subst this
            by_cases h : i = n
            · rw [h]; exact hf
            · exact d i h1 (by omega)

section
variable {P : Type}

theorem vclAnyOwned_iff (own : P → Ownership) (cs : Nat) (tower : List P) (k : Nat) :
    vclAnyOwned own (vclSlots cs tower k) = true ↔ ∃ p ∈ clusterOf cs tower k, own p = .owned := by
  rw [← vclSlots_reduce]
  unfold vclAnyOwned
  simp only [List.any_eq_true, List.reduceOption_mem_iff]
  constructor
  · rintro ⟨x, hx, h⟩
    cases x with
    | none => simp at h
    | some p => exact ⟨p, hx, by simpa using h⟩
  · rintro ⟨p, hp, h⟩
    exact ⟨some p, hp, by simpa using h⟩

/-- Clusters from the first owned one up to the first tail halo cluster contain an owned particle. -/
theorem vclOwned_range {own : P → Ownership} {cs : Nat} {tower : List P} {k : Nat} (h1 : vclFirstOwned cs own tower ≤ k)
    (h2 : k < vclFirstTail cs own tower) : k < vclNumClusters cs tower ∧ vclAnyOwned own (vclSlots cs tower k) = true := by
  have h := vclScan_facts (fun k => vclAnyOwned own (vclSlots cs tower k)) (vclNumClusters cs tower)
  unfold vclFirstOwned at h1
  unfold vclFirstTail at h2
  revert h h1 h2
  generalize vclScan _ _ = s
  obtain ⟨s1, s2⟩ := s
  rintro h1 h2 ⟨i1, i2, i3, i4⟩
  cases s1 with
  | none =>
    have := (i1 rfl).1
    simp only at this
    subst this
    simp at h1 h2
    omega
  | some m =>
    cases s2 with
    | none =>
      simp at h1 h2
      exact ⟨h2, i3 m rfl rfl k h1 h2⟩
    | some t =>
      obtain ⟨m', e, a, b, c, d⟩ := i4 t rfl
      simp only [Option.some.injEq] at e
      subst e
      simp at h1 h2
      exact ⟨by omega, d k h1 h2⟩

theorem vclFirst_le (cs : Nat) (own : P → Ownership) (tower : List P) :
    vclFirstOwned cs own tower ≤ vclNumClusters cs tower ∧ vclFirstTail cs own tower ≤ vclNumClusters cs tower ∧
      vclFirstOwned cs own tower ≤ vclFirstTail cs own tower := by
  have h := vclScan_facts (fun k => vclAnyOwned own (vclSlots cs tower k)) (vclNumClusters cs tower)
  unfold vclFirstOwned vclFirstTail
  revert h
  generalize vclScan _ _ = s
  obtain ⟨s1, s2⟩ := s
  rintro ⟨i1, i2, i3, i4⟩
  cases s1 with
  | none =>
    have := (i1 rfl).1
    simp only at this
    subst this
    simp
  | some m =>
    have := i2 m rfl
    cases s2 with
    | none => simp; omega
    | some t =>
      obtain ⟨m', e, a, b, c, d⟩ := i4 t rfl
      simp only [Option.some.injEq] at e
      subst e
      simp; omega

/-- If the clusters with an owned particle are consecutive, they are the clusters of that range. -/
theorem vclOwned_in_range {own : P → Ownership} {cs : Nat} {tower : List P} {k : Nat} (hk : k < vclNumClusters cs tower)
    (ho : vclAnyOwned own (vclSlots cs tower k) = true)
    (hc : ∀ i j l, i < j → j < l → l < vclNumClusters cs tower → vclAnyOwned own (vclSlots cs tower i) = true →
      vclAnyOwned own (vclSlots cs tower l) = true → vclAnyOwned own (vclSlots cs tower j) = true) :
    vclFirstOwned cs own tower ≤ k ∧ k < vclFirstTail cs own tower := by
  have h := vclScan_facts (fun k => vclAnyOwned own (vclSlots cs tower k)) (vclNumClusters cs tower)
  unfold vclFirstOwned vclFirstTail
  revert h
  generalize vclScan _ _ = s
  obtain ⟨s1, s2⟩ := s
  rintro ⟨i1, i2, i3, i4⟩
  cases s1 with
  | none =>
    have := (i1 rfl).2 k hk
    rw [ho] at this
    cases this
  | some m =>
    obtain ⟨a, b, c⟩ := i2 m rfl
    have hmk : m ≤ k := by
      by_contra hlt
      have := c k (by omega)
      rw [ho] at this
      cases this
    cases s2 with
    | none => simp; omega
    | some t =>
      obtain ⟨m', e, a', b', c', d⟩ := i4 t rfl
      simp only [Option.some.injEq] at e
      subst e
      simp only [Option.getD_some]
      refine ⟨hmk, ?_⟩
      by_contra hge
      have htk : t ≠ k := by
        rintro rfl
        rw [ho] at c'
        cases c'
      have := hc m t k a' (by omega) hk b ho
      rw [this] at c'
      cases c'

end

section
variable {P : Type} [DecidableEq P] {s : VCL P} {ox oy : Nat}

/-- A tower with a position inside of the box in x and y lies inside. -/
theorem tower_inside {bMin bMax side x y : Rat} {per o t : Nat} (hs : 0 < side) (hbox : side * o = bMax - bMin)
    (h1 : bMin ≤ x) (h2 : x < bMax) (h3 : bMin - side * per + side * t ≤ x) (h4 : x < bMin - side * per + side * t + side)
    (h5 : bMin - side * per + side * t ≤ y) (h6 : y < bMin - side * per + side * t + side) : bMin ≤ y ∧ y < bMax := by
  have a : per ≤ t := by
    by_contra hlt
    have : (t : Rat) + 1 ≤ per := by exact_mod_cast (by omega : t + 1 ≤ per)
    have := mul_le_mul_of_nonneg_left this (le_of_lt hs)
    linarith
  have b : t + 1 ≤ o + per := by
    by_contra hlt
    have : (o : Rat) + per ≤ t := by exact_mod_cast (by omega : o + per ≤ t)
    have := mul_le_mul_of_nonneg_left this (le_of_lt hs)
    linarith
  have a' : (per : Rat) ≤ t := by exact_mod_cast a
  have b' : (t : Rat) + 1 ≤ o + per := by exact_mod_cast b
  have a'' := mul_le_mul_of_nonneg_left a' (le_of_lt hs)
  have b'' := mul_le_mul_of_nonneg_left b' (le_of_lt hs)
  constructor <;> linarith

omit [DecidableEq P] in
theorem clusterOf_index {cs : Nat} {tower : List P} {k : Nat} {p : P} (h : p ∈ clusterOf cs tower k) :
    ∃ i, ∃ hi : i < tower.length, cs * k ≤ i ∧ i < cs * k + cs ∧ tower[i] = p := by
  unfold clusterOf at h
  obtain ⟨i, hi, e⟩ := List.mem_iff_getElem.1 h
  rw [List.getElem_take, List.getElem_drop] at e
  rw [List.length_take, List.length_drop] at hi
  exact ⟨cs * k + i, by omega, by omega, by omega, e⟩

omit [DecidableEq P] in
theorem clusterOf_of_index {cs : Nat} {tower : List P} {k i : Nat} (hi : i < tower.length) (h1 : cs * k ≤ i) (h2 : i < cs * k + cs) :
    tower[i] ∈ clusterOf cs tower k := by
  unfold clusterOf
  rw [List.mem_iff_getElem]
  refine ⟨i - cs * k, ?_, ?_⟩
  · rw [List.length_take, List.length_drop]; omega
  · rw [List.getElem_take, List.getElem_drop]
    congr 1; omega

/-- The clusters with an owned particle are consecutive. -/
theorem VCLBuilt.consecutive (h : VCLBuilt s ox oy) {t : Nat × Nat} (ht : t.1 < s.g.tx) (i j l : Nat) (hij : i < j) (hjl : j < l)
    (hi : vclAnyOwned s.own (vclSlots s.clusterSize (s.tower t) i) = true)
    (hl : vclAnyOwned s.own (vclSlots s.clusterSize (s.tower t) l) = true) :
    vclAnyOwned s.own (vclSlots s.clusterSize (s.tower t) j) = true := by
  rw [vclAnyOwned_iff] at *
  obtain ⟨p, hp, op⟩ := hi
  obtain ⟨q, hq, oq⟩ := hl
  obtain ⟨ip, lp, p1, p2, rfl⟩ := clusterOf_index hp
  obtain ⟨iq, lq, q1, q2, rfl⟩ := clusterOf_index hq
  have hcs := h.cs
  have m1 : s.clusterSize * i + s.clusterSize ≤ s.clusterSize * j := by
    have := Nat.mul_le_mul_left s.clusterSize (show i + 1 ≤ j by omega)
    rwa [Nat.mul_add, Nat.mul_one] at this
  have m2 : s.clusterSize * j + s.clusterSize ≤ s.clusterSize * l := by
    have := Nat.mul_le_mul_left s.clusterSize (show j + 1 ≤ l by omega)
    rwa [Nat.mul_add, Nat.mul_one] at this
  have hj : s.clusterSize * j < (s.tower t).length := by omega
  refine ⟨(s.tower t)[s.clusterSize * j], clusterOf_of_index hj (le_refl _) (by omega), ?_⟩
  have hsort := h.sorted (s.g.to1D t)
  change (s.tower t).Pairwise _ at hsort
  rw [List.pairwise_iff_getElem] at hsort
  have z1 := hsort ip (s.clusterSize * j) lp hj (by omega)
  have z2 := hsort (s.clusterSize * j) iq hj lq (by omega)
  have mp := (h.mem_tower ht).1 (List.getElem_mem lp)
  have mq := (h.mem_tower ht).1 (List.getElem_mem lq)
  have mr := (h.mem_tower ht).1 (List.getElem_mem hj)
  have bp := (h.placed _ _ (List.getElem_mem lp : (s.tower t)[ip] ∈ s.tower t)).1
  have br := (h.placed _ _ (List.getElem_mem hj : (s.tower t)[s.clusterSize * j] ∈ s.tower t)).1
  rw [((h.live _ mr.1)).2]
  rw [((h.live _ mp.1)).2] at op
  rw [((h.live _ mq.1)).2] at oq
  have tp := h.ok.in_towerBox h.even bp
  have tr := h.ok.in_towerBox h.even br
  rw [mp.2] at tp
  rw [mr.2] at tr
  obtain ⟨⟨o1, o2⟩, ⟨o3, o4⟩, o5, -⟩ := op
  obtain ⟨-, -, -, o6⟩ := oq
  obtain ⟨⟨a1, a2⟩, ⟨a3, a4⟩, -⟩ := tp
  obtain ⟨⟨b1, b2⟩, ⟨b3, b4⟩, -⟩ := tr
  exact ⟨tower_inside h.ok.sxPos h.ok.boxX o1 o2 a1 a2 b1 b2, tower_inside h.ok.syPos h.ok.boxY o3 o4 a3 a4 b3 b4, by linarith, by linarith⟩

/-- The cluster of an owned particle is no halo cluster. -/
theorem VCLBuilt.home_owned (h : VCLBuilt s ox oy) {p : P} (hp : p ∈ s.towers.flatten) (ho : s.own p = .owned) :
    vclFirstOwned s.clusterSize s.own (s.tower (s.home p).1) ≤ (s.home p).2 ∧
      (s.home p).2 < vclFirstTail s.clusterSize s.own (s.tower (s.home p).1) := by
  refine vclOwned_in_range (h.home_num hp) ?_ ?_
  · rw [vclAnyOwned_iff]
    exact ⟨p, (h.mem_members (h.home_lt p).1).2 ⟨hp, rfl⟩, ho⟩
  · intro i j l hij hjl _ hi hl
    exact h.consecutive (h.home_lt p).1 i j l hij hjl hi hl

theorem VCLBuilt.home_not_halo (h : VCLBuilt s ox oy) {p : P} (hp : p ∈ s.towers.flatten) (ho : s.own p = .owned) : s.isHalo (s.home p) = false := by
  have := h.home_owned hp ho
  unfold VCL.isHalo vclIsHalo
  simp only [Bool.or_eq_false_iff, decide_eq_false_iff_not]
  omega

theorem VCLRebuilt.home_not_empty (h : VCLRebuilt s ox oy) {p : P} (hp : p ∈ s.towers.flatten) :
    vclEmpty s.clusterSize s.own (s.tower (s.home p).1) (s.home p).2 = false := by
  have hm : p ∈ clusterOf s.clusterSize (s.tower (s.home p).1) (s.home p).2 := (h.mem_members (h.home_lt p).1).2 ⟨hp, rfl⟩
  rw [← vclSlots_reduce, List.reduceOption_mem_iff] at hm
  unfold vclEmpty
  rw [List.all_eq_false]
  exact ⟨some p, hm, by simpa using (h.live p hp).1⟩

/-! ### Distances -/

private theorem foldl_min_le (l : List Rat) (x : Rat) : l.foldl min x ≤ x ∧ ∀ y ∈ l, l.foldl min x ≤ y := by
  induction l generalizing x with
  | nil => simp
  | cons z l ih =>
    obtain ⟨h1, h2⟩ := ih (min x z)
    simp only [List.foldl_cons, List.mem_cons]
    refine ⟨h1.trans (min_le_left _ _), ?_⟩
    rintro y (rfl | hy)
    · exact h1.trans (min_le_right _ _)
    · exact h2 y hy

private theorem le_foldl_max (l : List Rat) (x : Rat) : x ≤ l.foldl max x ∧ ∀ y ∈ l, y ≤ l.foldl max x := by
  induction l generalizing x with
  | nil => simp
  | cons z l ih =>
    obtain ⟨h1, h2⟩ := ih (max x z)
    simp only [List.foldl_cons, List.mem_cons]
    refine ⟨(le_max_left _ _).trans h1, ?_⟩
    rintro y (rfl | hy)
    · exact (le_max_right _ _).trans h1
    · exact h2 y hy

private theorem sorted_head_last {l : List (V3 Rat)} (h : l.Pairwise fun p q => p.z ≤ q.z) {p : V3 Rat} (hp : p ∈ l) (d : V3 Rat) :
    (l.headD d).z ≤ p.z ∧ p.z ≤ (l.getLastD d).z := by
  constructor
  · cases l with
    | nil => cases hp
    | cons x l =>
      simp only [List.headD_cons]
      rcases List.mem_cons.1 hp with rfl | hp
      · exact le_refl _
      · exact (List.pairwise_cons.1 h).1 p hp
  · rcases List.eq_nil_or_concat l with rfl | ⟨l, x, rfl⟩
    · cases hp
    · rw [List.concat_eq_append] at *
      rw [List.getLastD_concat]
      rcases List.mem_append.1 hp with hp | hp
      · exact (List.pairwise_append.1 h).2.2 p hp x (by simp)
      · rw [List.mem_singleton.1 hp]

omit [DecidableEq P] in
theorem vclPositions_sorted (cs : Nat) (pos : P → V3 Rat) (tower : List P) (k : Nat) (h : tower.Pairwise fun p q => (pos p).z ≤ (pos q).z) :
    (vclPositions cs pos tower k).Pairwise fun p q => p.z ≤ q.z := by
  unfold vclPositions vclSlots
  rw [List.map_take, List.map_drop]
  apply List.Pairwise.sublist ((List.take_sublist _ _).trans (List.drop_sublist _ _))
  unfold vclStorage
  rw [List.map_append, List.map_map, List.map_replicate, List.pairwise_append]
  refine ⟨?_, ?_, ?_⟩
  · rw [List.pairwise_map]; exact h
  · rw [List.pairwise_replicate]; exact .inr (le_refl _)
  · intro p hp q hq
    obtain ⟨p', hp', rfl⟩ := List.mem_map.1 hp
    clear hp
    have hq := List.eq_of_mem_replicate hq
    subst hq
    rcases List.eq_nil_or_concat tower with rfl | ⟨l, x, rfl⟩
    · cases hp'
    · rw [List.concat_eq_append] at *
      rw [List.getLast?_concat]
      show (pos p').z ≤ (pos x).z
      rcases List.mem_append.1 hp' with hp | hp
      · exact (List.pairwise_append.1 h).2.2 p' hp x (by simp)
      · rw [List.mem_singleton.1 hp]

/-- The bounding box of a cluster contains its particles. -/
theorem VCLRebuilt.in_box (h : VCLRebuilt s ox oy) {k : ClusterId} {p : P} (hp : p ∈ s.members k) :
    (s.box k).1.x ≤ (s.pos p).x ∧ (s.pos p).x ≤ (s.box k).2.x ∧ (s.box k).1.y ≤ (s.pos p).y ∧ (s.pos p).y ≤ (s.box k).2.y ∧
      (s.box k).1.z ≤ (s.pos p).z ∧ (s.pos p).z ≤ (s.box k).2.z := by
  have hm : s.pos p ∈ vclPositions s.clusterSize s.pos (s.tower k.1) k.2 := by
    unfold VCL.members at hp
    rw [← vclSlots_reduce, List.reduceOption_mem_iff] at hp
    exact List.mem_map.2 ⟨some p, hp, rfl⟩
  have hs := vclPositions_sorted s.clusterSize s.pos (s.tower k.1) k.2 (h.sorted _)
  unfold VCL.box vclBoundingBox
  simp only
  have hz := sorted_head_last hs hm ⟨0, 0, 0⟩
  exact ⟨(foldl_min_le _ _).2 _ (List.mem_map.2 ⟨_, hm, rfl⟩), (le_foldl_max _ _).2 _ (List.mem_map.2 ⟨_, hm, rfl⟩),
    (foldl_min_le _ _).2 _ (List.mem_map.2 ⟨_, hm, rfl⟩), (le_foldl_max _ _).2 _ (List.mem_map.2 ⟨_, hm, rfl⟩), hz.1, hz.2⟩

private theorem axis_dist {a b aMin aMax bMin bMax : Rat} (h1 : aMin ≤ a) (h2 : a ≤ aMax) (h3 : bMin ≤ b) (h4 : b ≤ bMax) :
    (max 0 (aMin - bMax)) ^ 2 + (max 0 (bMin - aMax)) ^ 2 ≤ (a - b) * (a - b) := by
  rcases le_total (aMin - bMax) 0 with u | u
  · rw [max_eq_left u]
    rcases le_total (bMin - aMax) 0 with v | v
    · rw [max_eq_left v]
      nlinarith [mul_self_nonneg (a - b)]
    · rw [max_eq_right v]
      have : bMin - aMax ≤ b - a := by linarith
      nlinarith [mul_le_mul this this v (by linarith)]
  · rw [max_eq_right u, max_eq_left (by linarith)]
    have : aMin - bMax ≤ a - b := by linarith
    nlinarith [mul_le_mul this this u (by linarith)]

/-- Clusters of close particles are close. -/
theorem VCLRebuilt.box_near (h : VCLRebuilt s ox oy) {k k' : ClusterId} {a b : P} (ha : a ∈ s.members k) (hb : b ∈ s.members k')
    (hd : distSq (s.pos a) (s.pos b) < s.g.il * s.g.il) :
    boxDistanceSquared (s.box k).1 (s.box k).2 (s.box k').1 (s.box k').2 ≤ s.g.il * s.g.il := by
  obtain ⟨a1, a2, a3, a4, a5, a6⟩ := h.in_box ha
  obtain ⟨b1, b2, b3, b4, b5, b6⟩ := h.in_box hb
  unfold boxDistanceSquared
  unfold distSq at hd
  have x := axis_dist a1 a2 b1 b2
  have y := axis_dist a3 a4 b3 b4
  have z := axis_dist a5 a6 b5 b6
  linarith

private theorem tower_axis {bMin side a b il : Rat} {per t t' : Nat} (hs : 0 < side) (hil : 0 < il)
    (h1 : bMin - side * per + side * t ≤ a) (h2 : a < bMin - side * per + side * t + side)
    (h3 : bMin - side * per + side * t' ≤ b) (h4 : b < bMin - side * per + side * t' + side) (hd : (a - b) * (a - b) < il * il) :
    t ≤ t' + ⌈il / side⌉.toNat ∧ t' ≤ t + ⌈il / side⌉.toNat ∧
      ((absDiff t t' - 1 : Nat) : Rat) * side * (((absDiff t t' - 1 : Nat) : Rat) * side) ≤ (a - b) * (a - b) := by
  have hab : |a - b| < il := by
    rw [← sq_lt_sq₀ (abs_nonneg _) (le_of_lt hil), sq_abs, sq, sq]; exact hd
  have key : ((absDiff t t' - 1 : Nat) : Rat) * side ≤ |a - b| := by
    unfold absDiff
    split
    · rename_i hlt
      have e : ((t - t' - 1 : Nat) : Rat) = t - t' - 1 := by
        have : (t : Rat) = ((t - t' - 1 : Nat) : Rat) + t' + 1 := by exact_mod_cast (by omega : t = t - t' - 1 + t' + 1)
        linarith
      rw [e]
      have := le_abs_self (a - b)
      nlinarith
    · rename_i hge
      rcases Nat.eq_or_lt_of_le (Nat.le_of_not_lt hge) with e | hlt
      · rw [e]; simp [abs_nonneg]
      · have e : ((t' - t - 1 : Nat) : Rat) = t' - t - 1 := by
          have : (t' : Rat) = ((t' - t - 1 : Nat) : Rat) + t + 1 := by exact_mod_cast (by omega : t' = t' - t - 1 + t + 1)
          linarith
        rw [e]
        have := neg_le_abs (a - b)
        nlinarith
  have hn : absDiff t t' - 1 < ⌈il / side⌉.toNat := by
    have h1 : ((absDiff t t' - 1 : Nat) : Rat) < il / side := by
      rw [lt_div_iff₀ hs]; linarith
    have h2 := lt_of_lt_of_le h1 (Int.le_ceil (il / side))
    have h3 : ((absDiff t t' - 1 : Nat) : Int) < ⌈il / side⌉ := by exact_mod_cast h2
    omega
  have hcp := ceil_toNat_pos hil hs
  refine ⟨?_, ?_, ?_⟩
  · unfold absDiff at hn; split at hn <;> omega
  · unfold absDiff at hn; split at hn <;> omega
  · rw [← abs_mul_abs_self (a - b)]
    exact mul_le_mul key key (by positivity) (abs_nonneg _)

/-- Towers of close particles are close. -/
theorem VCLBuilt.tower_near (h : VCLBuilt s ox oy) {a b : P} (ha : a ∈ s.towers.flatten) (hb : b ∈ s.towers.flatten)
    (hd : distSq (s.pos a) (s.pos b) < s.g.il * s.g.il) :
    (s.home a).1.1 ≤ (s.home b).1.1 + s.g.per ∧ (s.home b).1.1 ≤ (s.home a).1.1 + s.g.per ∧ (s.home a).1.2 ≤ (s.home b).1.2 + s.g.per ∧
      (s.home b).1.2 ≤ (s.home a).1.2 + s.g.per ∧ s.g.towersClose (s.home a).1 (s.home b).1 = true := by
  have inb : ∀ {p : P}, p ∈ s.towers.flatten → InBox (s.pos p) (s.g.towerBox (s.home p).1).1 (s.g.towerBox (s.home p).1).2 := by
    intro p hp
    have := (h.mem_tower (h.home_lt p).1).2 ⟨hp, rfl⟩
    exact h.ok.in_towerBox h.even (h.placed _ p this).1
  obtain ⟨⟨a1, a2⟩, ⟨a3, a4⟩, -⟩ := inb ha
  obtain ⟨⟨b1, b2⟩, ⟨b3, b4⟩, -⟩ := inb hb
  unfold distSq at hd
  have x0 := mul_self_nonneg ((s.pos a).x - (s.pos b).x)
  have y0 := mul_self_nonneg ((s.pos a).y - (s.pos b).y)
  have z0 := mul_self_nonneg ((s.pos a).z - (s.pos b).z)
  obtain ⟨x1, x2, x3⟩ := tower_axis h.ok.sxPos h.ok.ilPos a1 a2 b1 b2 (by linarith)
  obtain ⟨y1, y2, y3⟩ := tower_axis h.ok.syPos h.ok.ilPos a3 a4 b3 b4 (by linarith)
  have px : s.g.perX ≤ s.g.per := le_max_left _ _
  have py : s.g.perY ≤ s.g.per := le_max_right _ _
  unfold VCLGrid.perX at px
  unfold VCLGrid.perY at py
  refine ⟨by omega, by omega, by omega, by omega, ?_⟩
  unfold VCLGrid.towersClose
  simp only [decide_eq_true_eq]
  linarith

/-- Of two different towers exactly one is a forward neighbour of the other. -/
theorem VCLGrid.isForward_ne {g : VCLGrid} {t t' : Nat × Nat} (h1 : t.1 < g.tx) (h2 : t'.1 < g.tx) (hne : t ≠ t') :
    g.isForward t' t = !g.isForward t t' := by
  have := mt (VCLGrid.to1D_inj h1 h2).1 hne
  unfold VCLGrid.isForward
  rcases Nat.lt_trichotomy (g.interactionCell t) (g.interactionCell t') with h | h | h
  · rw [if_neg (by omega), if_pos (by omega), if_pos (by omega)]; rfl
  · rw [if_neg (by omega), if_neg (by omega), if_neg (by omega), if_neg (by omega)]
    rw [Bool.eq_iff_iff]
    simp only [decide_eq_true_eq, Bool.not_eq_true', decide_eq_false_iff_not]
    omega
  · rw [if_pos (by omega), if_neg (by omega), if_pos (by omega)]; rfl

theorem VCLGrid.isForward_self {g : VCLGrid} {t : Nat × Nat} : g.isForward t t = true := by
  unfold VCLGrid.isForward
  rw [if_neg (by omega), if_neg (by omega)]
  simp

/-- The clusters of close particles, one of which is owned, are in the list of one of them. -/
theorem VCLBuilt.neighbours_near (h : VCLBuilt s ox oy) {a b : P} (ha : a ∈ s.towers.flatten) (hb : b ∈ s.towers.flatten)
    (ho : s.own a = .owned ∨ s.own b = .owned) (hd : distSq (s.pos a) (s.pos b) < s.g.il * s.g.il) (hne : s.home a ≠ s.home b)
    (hfw : s.newton3 = true → s.g.isForward (s.home a).1 (s.home b).1 = true)
    (hlt : (s.home a).1 = (s.home b).1 → s.newton3 = true → (s.home a).2 < (s.home b).2) : s.home b ∈ s.neighbours (s.home a) := by
  obtain ⟨n1, n2, n3, n4, n5⟩ := h.tower_near ha hb hd
  have la := h.home_lt a
  have lb := h.home_lt b
  rw [VCL.mem_neighbours, VCLGrid.mem_neighbourTowers (by omega) (by omega), VCL.mem_between]
  refine ⟨⟨lb.1, lb.2, n1, n2, n3, n4, hfw, n5⟩, rfl, h.home_not_empty ha, h.home_num hb, hlt, Ne.symm hne, ?_, h.home_not_empty hb, ?_⟩
  · rintro ⟨x, y⟩
    rcases ho with ho | ho
    · rw [h.home_not_halo ha ho] at x; cases x
    · rw [h.home_not_halo hb ho] at y; cases y
  · exact h.box_near ((h.mem_members la.1).2 ⟨ha, rfl⟩) ((h.mem_members lb.1).2 ⟨hb, rfl⟩) hd

/-- With Newton 3 no two clusters are in each other's list. -/
theorem VCLRebuilt.neighbours_asymm {k k' : ClusterId} (hk : k.1.1 < s.g.tx) (hk' : k'.1.1 < s.g.tx) (hy : 0 < s.g.ty)
    (hn : s.newton3 = true) (h1 : k' ∈ s.neighbours k) (h2 : k ∈ s.neighbours k') : False := by
  rw [VCL.mem_neighbours, VCLGrid.mem_neighbourTowers (by omega) hy, VCL.mem_between] at h1 h2
  obtain ⟨⟨-, -, -, -, -, -, f1, -⟩, -, -, -, l1, -⟩ := h1
  obtain ⟨⟨-, -, -, -, -, -, f2, -⟩, -, -, -, l2, -⟩ := h2
  by_cases e : k.1 = k'.1
  · have := l1 e hn
    have := l2 e.symm hn
    omega
  · have h := VCLGrid.isForward_ne hk hk' e
    rw [f1 hn, f2 hn] at h
    cases h

/-! ### Counting -/

/-- The clusters a traversal has to process: those of every tower. -/
structure VisitsAll (s : VCL P) (visits : List ClusterId) : Prop where
  nodup : visits.Nodup
  mem : ∀ k, k ∈ visits ↔ k.1.1 < s.g.tx ∧ k.1.2 < s.g.ty ∧ k.2 ∈ vclRange s.clusterSize s.own s.newton3 (s.tower k.1)

theorem VCL.mem_opsOf {k : ClusterId} {o : ClusterId × ClusterId} :
    o ∈ s.opsOf k ↔ o.1 = k ∧ ((o.2 = k ∧ s.isHalo k = false) ∨ o.2 ∈ s.neighbours k) := by
  unfold VCL.opsOf
  rw [List.mem_append, List.mem_map]
  obtain ⟨o1, o2⟩ := o
  constructor
  · rintro (h | ⟨k', h, e⟩)
    · cases hh : s.isHalo k
      · rw [hh] at h
        simp only [Bool.false_eq_true, if_false, List.mem_singleton, Prod.mk.injEq] at h
        exact ⟨h.1, .inl ⟨h.2, rfl⟩⟩
      · rw [hh] at h; simp at h
    · rw [Prod.mk.injEq] at e
      exact ⟨e.1.symm, .inr (e.2 ▸ h)⟩
  · rintro ⟨e1, ⟨e2, h⟩ | h⟩
    · left; simp only at e1 e2; subst e1 e2; rw [h]; simp
    · right; simp only at e1; subst e1; exact ⟨o2, h, rfl⟩

theorem VCL.nodup_opsOf (k : ClusterId) : (s.opsOf k).Nodup := by
  unfold VCL.opsOf
  rw [List.nodup_append']
  refine ⟨?_, ?_, ?_⟩
  · split <;> simp
  · exact List.Nodup.map (fun a b h => (Prod.mk.inj h).2) (VCL.nodup_neighbours k)
  · intro o h1 h2
    obtain ⟨k', h, rfl⟩ := List.mem_map.1 h2
    have hne := (VCL.mem_between.1 (VCL.mem_neighbours.1 h).2).2.2.2.2.1
    split at h1
    · cases h1
    · simp only [List.mem_singleton, Prod.mk.injEq, true_and] at h1
      exact hne h1

theorem VCLRebuilt.received (h : VCLRebuilt s ox oy) {visits : List ClusterId} (hv : VisitsAll s visits) {a b : P} (hab : a ≠ b)
    (ha : a ∈ s.towers.flatten) (hb : b ∈ s.towers.flatten) :
    timesReceived (visits.flatMap s.processCluster) a b =
      (visits.flatMap s.opsOf).countP (clusterHit s.newton3 (s.home a) (s.home b)) := by
  have e : visits.flatMap s.processCluster = (visits.flatMap s.opsOf).flatMap s.op := by
    rw [List.flatMap_assoc]
    exact List.flatMap_congr fun k _ => VCL.processCluster_ops k
  rw [e]
  apply timesReceived_flatMap_indicator
  intro o ho
  obtain ⟨k, hk, ho⟩ := List.mem_flatMap.1 ho
  have hk := (hv.mem k).1 hk
  obtain ⟨e1, h2⟩ := VCL.mem_opsOf.1 ho
  refine h.op_received hab ha hb (by rw [e1]; exact hk.1) ?_
  rcases h2 with ⟨e2, -⟩ | h2
  · rw [e2]; exact hk.1
  · exact ((VCLGrid.mem_neighbourTowers (by omega) (by omega)).1 (VCL.mem_neighbours.1 h2).1).1

theorem nodup_ops {visits : List ClusterId} (hnd : visits.Nodup) : (visits.flatMap s.opsOf).Nodup := by
  rw [List.nodup_flatMap]
  refine ⟨fun k _ => VCL.nodup_opsOf k, hnd.imp ?_⟩
  intro k k' hne o h1 h2
  exact hne ((VCL.mem_opsOf.1 h1).1.symm.trans (VCL.mem_opsOf.1 h2).1)

private theorem countP_two {X : Type} [DecidableEq X] {l : List X} (hnd : l.Nodup) (x y : X) (n : Bool) :
    (x = y ∨ n = false → l.countP (fun o => decide (o = x) || (n && decide (o = y))) = if x ∈ l then 1 else 0) ∧
    (x ≠ y → n = true → l.countP (fun o => decide (o = x) || (n && decide (o = y))) =
      (if x ∈ l then 1 else 0) + if y ∈ l then 1 else 0) := by
  have hone : ∀ z : X, l.countP (fun o => decide (o = z)) = if z ∈ l then 1 else 0 := by
    intro z
    have e : l.countP (fun o => decide (o = z)) = l.count z := by
      unfold List.count
      apply List.countP_congr
      intro o _
      simp
    rw [e]
    split
    · rename_i hz; exact List.count_eq_one_of_mem hnd hz
    · rename_i hz; exact List.count_eq_zero_of_not_mem hz
  constructor
  · rintro h
    rw [← hone x]
    apply List.countP_congr
    intro o _
    rcases h with rfl | rfl
    · simp
    · simp
  · intro hxy hn
    subst hn
    rw [← hone x, ← hone y]
    induction l with
    | nil => rfl
    | cons z l ih =>
      rw [List.countP_cons, List.countP_cons, List.countP_cons, ih (List.nodup_cons.1 hnd).2 (fun w => by
        have e : l.countP (fun o => decide (o = w)) = l.count w := by
          unfold List.count
          apply List.countP_congr
          intro o _
          simp
        rw [e]
        split
        · rename_i hz; exact List.count_eq_one_of_mem (List.nodup_cons.1 hnd).2 hz
        · rename_i hz; exact List.count_eq_zero_of_not_mem hz)]
      by_cases h1 : z = x
      · subst h1
        simp [hxy]
        omega
      · by_cases h2 : z = y
        · subst h2
          simp [h1]
          omega
        · simp [h1, h2]

theorem VCLBuilt.in_range (h : VCLBuilt s ox oy) {visits : List ClusterId} (hv : VisitsAll s visits) {p : P} (hp : p ∈ s.towers.flatten)
    (ho : s.newton3 = true ∨ s.own p = .owned) : s.home p ∈ visits := by
  rw [hv.mem]
  refine ⟨(h.home_lt p).1, (h.home_lt p).2, ?_⟩
  unfold vclRange
  cases hn : s.newton3
  · rw [hn] at ho
    simp only [Bool.false_eq_true, false_or] at ho
    have := h.home_owned hp ho
    simp only [Bool.false_eq_true, if_false]
    rw [List.mem_range'_1]; omega
  · simp only [if_true]
    rw [List.mem_range]; exact h.home_num hp

/-- Two particles within the interaction length, the first one owned: it gets the second one exactly once. -/
theorem VCLBuilt.once (h : VCLBuilt s ox oy) {visits : List ClusterId} (hv : VisitsAll s visits) {a b : P} (hab : a ≠ b)
    (ha : a ∈ s.towers.flatten) (hb : b ∈ s.towers.flatten) (ho : s.own a = .owned)
    (hd : distSq (s.pos a) (s.pos b) < s.g.il * s.g.il) : timesReceived (visits.flatMap s.processCluster) a b = 1 := by
  rw [h.received hv hab ha hb]
  have hmem : ∀ {k k' : ClusterId}, (k, k') ∈ visits.flatMap s.opsOf ↔ k ∈ visits ∧ ((k' = k ∧ s.isHalo k = false) ∨ k' ∈ s.neighbours k) := by
    intro k k'
    rw [List.mem_flatMap]
    constructor
    · rintro ⟨k₀, hk₀, h⟩
      obtain ⟨rfl, h⟩ := VCL.mem_opsOf.1 h
      exact ⟨hk₀, h⟩
    · rintro ⟨h1, h2⟩
      exact ⟨k, h1, VCL.mem_opsOf.2 ⟨rfl, h2⟩⟩
  have hva := h.in_range hv ha (.inr ho)
  unfold clusterHit
  by_cases e : s.home a = s.home b
  · rw [(countP_two (nodup_ops hv.nodup) _ _ _).1 (.inl (by rw [e])), if_pos]
    rw [← e, hmem]
    exact ⟨hva, .inl ⟨rfl, h.home_not_halo ha ho⟩⟩
  · cases hn : s.newton3
    · rw [(countP_two (nodup_ops hv.nodup) _ _ _).1 (.inr rfl), if_pos]
      rw [hmem]
      refine ⟨hva, .inr ?_⟩
      exact h.neighbours_near ha hb (.inl ho) hd e (fun c => by rw [hn] at c; cases c) (fun _ c => by rw [hn] at c; cases c)
    · rw [(countP_two (nodup_ops hv.nodup) _ _ _).2 (fun c => e (Prod.mk.inj c).1) rfl]
      have hvb := h.in_range hv hb (.inl hn)
      have la := h.home_lt a
      have lb := h.home_lt b
      have hd' : distSq (s.pos b) (s.pos a) < s.g.il * s.g.il := by unfold distSq at *; linarith
      have hdir : s.home b ∈ s.neighbours (s.home a) ∨ s.home a ∈ s.neighbours (s.home b) := by
        by_cases et : (s.home a).1 = (s.home b).1
        · rcases Nat.lt_trichotomy (s.home a).2 (s.home b).2 with hl | hl | hl
          · exact .inl (h.neighbours_near ha hb (.inl ho) hd e (fun _ => by rw [et]; exact VCLGrid.isForward_self) (fun _ _ => hl))
          · exact absurd (Prod.ext et hl) e
          · exact .inr (h.neighbours_near hb ha (.inr ho) hd' (Ne.symm e) (fun _ => by rw [et]; exact VCLGrid.isForward_self) (fun _ _ => hl))
        · cases hf : s.g.isForward (s.home a).1 (s.home b).1
          · right
            refine h.neighbours_near hb ha (.inr ho) hd' (Ne.symm e) (fun _ => ?_) (fun c => absurd c.symm et)
            rw [VCLGrid.isForward_ne la.1 lb.1 et, hf]; rfl
          · left
            exact h.neighbours_near ha hb (.inl ho) hd e (fun _ => hf) (fun c => absurd c et)
      have hnot : ¬ (s.home b ∈ s.neighbours (s.home a) ∧ s.home a ∈ s.neighbours (s.home b)) :=
        fun c => VCLRebuilt.neighbours_asymm la.1 lb.1 (by omega) hn c.1 c.2
      have q1 : (s.home a, s.home b) ∈ visits.flatMap s.opsOf ↔ s.home b ∈ s.neighbours (s.home a) := by
        rw [hmem]
        constructor
        · rintro ⟨-, ⟨c, -⟩ | c⟩
          · exact absurd c.symm e
          · exact c
        · exact fun c => ⟨hva, .inr c⟩
      have q2 : (s.home b, s.home a) ∈ visits.flatMap s.opsOf ↔ s.home a ∈ s.neighbours (s.home b) := by
        rw [hmem]
        constructor
        · rintro ⟨-, ⟨c, -⟩ | c⟩
          · exact absurd c e
          · exact c
        · exact fun c => ⟨hvb, .inr c⟩
      simp only [q1, q2]
      rcases hdir with c | c
      · rw [if_pos c, if_neg (fun c' => hnot ⟨c, c'⟩)]
      · rw [if_neg (fun c' => hnot ⟨c', c⟩), if_pos c]

/-- No particle gets another one twice. -/
theorem VCLRebuilt.most (h : VCLRebuilt s ox oy) {visits : List ClusterId} (hv : VisitsAll s visits) {a b : P} (hab : a ≠ b)
    (ha : a ∈ s.towers.flatten) (hb : b ∈ s.towers.flatten) : timesReceived (visits.flatMap s.processCluster) a b ≤ 1 := by
  rw [h.received hv hab ha hb]
  unfold clusterHit
  have la := h.home_lt a
  have lb := h.home_lt b
  by_cases e : s.home a = s.home b
  · rw [(countP_two (nodup_ops hv.nodup) _ _ _).1 (.inl (by rw [e]))]
    split <;> omega
  · cases hn : s.newton3
    · rw [(countP_two (nodup_ops hv.nodup) _ _ _).1 (.inr rfl)]
      split <;> omega
    · rw [(countP_two (nodup_ops hv.nodup) _ _ _).2 (fun c => e (Prod.mk.inj c).1) rfl]
      by_cases c1 : (s.home a, s.home b) ∈ visits.flatMap s.opsOf
      · by_cases c2 : (s.home b, s.home a) ∈ visits.flatMap s.opsOf
        · exfalso
          obtain ⟨k, -, d1⟩ := List.mem_flatMap.1 c1
          obtain ⟨k', -, d2⟩ := List.mem_flatMap.1 c2
          obtain ⟨rfl, d1⟩ := VCL.mem_opsOf.1 d1
          obtain ⟨rfl, d2⟩ := VCL.mem_opsOf.1 d2
          refine VCLRebuilt.neighbours_asymm la.1 lb.1 (by omega) hn (d1.resolve_left ?_) (d2.resolve_left ?_)
          · exact fun c => e c.1.symm
          · exact fun c => e c.1
        · rw [if_pos c1, if_neg c2]
      · rw [if_neg c1]; split <;> omega

/-- Calls are made for stored particles, never for a particle with itself. -/
theorem VCLRebuilt.calls_mem (h : VCLRebuilt s ox oy) {visits : List ClusterId} (hv : VisitsAll s visits) {c : PairCall P}
    (hc : c ∈ visits.flatMap s.processCluster) : c.p ∈ s.towers.flatten ∧ c.q ∈ s.towers.flatten ∧ c.p ≠ c.q ∧ c.newton3 = s.newton3 := by
  obtain ⟨k, hk, hc⟩ := List.mem_flatMap.1 hc
  rw [VCL.processCluster_ops] at hc
  obtain ⟨o, ho, hc⟩ := List.mem_flatMap.1 hc
  have hk := (hv.mem k).1 hk
  obtain ⟨e1, h2⟩ := VCL.mem_opsOf.1 ho
  have l1 : o.1.1.1 < s.g.tx := by rw [e1]; exact hk.1
  have l2 : o.2.1.1 < s.g.tx := by
    rcases h2 with ⟨e2, -⟩ | h2
    · rw [e2]; exact hk.1
    · exact ((VCLGrid.mem_neighbourTowers (by omega) (by omega)).1 (VCL.mem_neighbours.1 h2).1).1
  unfold VCL.op at hc
  split at hc
  · unfold soaSingle at hc
    obtain ⟨t, ht, hc⟩ := List.mem_flatMap.1 hc
    have hm := mem_pairLoop ht
    have hne := pairLoop_ne (get := id) (by rw [List.map_id]; exact h.members_nodup o.1) ht
    have m1 := ((h.mem_members l1).1 hm.1).1
    have m2 := ((h.mem_members l1).1 hm.2).1
    unfold interactCross at hc
    split at hc <;> simp at hc
    · rename_i hn; subst hc; exact ⟨m1, m2, hne, by simp [hn]⟩
    · rename_i hn
      simp only [Bool.not_eq_true] at hn
      rcases hc with rfl | rfl
      · exact ⟨m1, m2, hne, hn.symm⟩
      · exact ⟨m2, m1, Ne.symm hne, hn.symm⟩
  · rename_i hne
    rw [soaPair_eq s.newton3 false _ _ (.inr rfl)] at hc
    obtain ⟨t, ht, hc⟩ := List.mem_flatMap.1 hc
    have hm := mem_crossLoop ht
    have m1 := (h.mem_members l1).1 hm.1
    have m2 := (h.mem_members l2).1 hm.2
    have hne' : t.1 ≠ t.2 := by
      intro e
      apply hne
      rw [← m1.2, ← m2.2, e]
    unfold interactCross at hc
    split at hc <;> simp at hc
    · rename_i hn; subst hc; exact ⟨m1.1, m2.1, hne', by simp [hn]⟩
    · rename_i hn
      simp only [Bool.not_eq_true] at hn
      subst hc
      exact ⟨m1.1, m2.1, hne', hn.symm⟩

end
end Verif
