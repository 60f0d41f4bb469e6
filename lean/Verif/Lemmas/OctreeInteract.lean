import Verif.Lemmas.OctreeGeometry
import Verif.Lemmas.DirectSum
/-! Interactions of the octree. -/
namespace Verif.Octree
open Spec

section counting

/-- The calls of a traversal over `n` leaves, `nb i` being the leaves paired with leaf `i`. -/
def nbOps (c18 : Bool) (n : Nat) (nb : Nat → List Nat) : List CellOp :=
  (List.range n).flatMap fun (i : Nat) =>
    .self i :: (nb i).flatMap fun (j : Nat) => if c18 = true ∧ ¬ i < j then [] else [.pair i j ⟨0, 0, 0⟩]

theorem countP_opt {X Y : Type} (l : List X) (c : X → Prop) [DecidablePred c] (g : X → Y) (q : Y → Bool) :
    (l.flatMap fun j => if c j then [] else [g j]).countP q = l.countP fun j => decide (¬ c j) && q (g j) := by
  induction l with
  | nil => rfl
  | cons x l ih =>
    rw [List.flatMap_cons, List.countP_append, ih, List.countP_cons]
    by_cases h : c x
    · simp [h]
    · simp [h, Nat.add_comm]

theorem countP_le_of_eq {l : List Nat} (hl : l.Nodup) {q : Nat → Bool} (m : Nat) (h : ∀ j, q j = true → j = m) : l.countP q ≤ 1 := by
  calc l.countP q ≤ l.countP (· == m) := List.countP_mono_left fun j _ hj => by simpa using h j hj
    _ = l.count m := rfl
    _ ≤ 1 := List.nodup_iff_count_le_one.1 hl m

theorem countP_eq_of_eq {l : List Nat} (hl : l.Nodup) {q : Nat → Bool} {m : Nat} (h : ∀ j, q j = true → j = m) (hm : m ∈ l) (hq : q m = true) :
    l.countP q = 1 := by
  have h1 := countP_le_of_eq hl m h
  have h2 : 0 < l.countP q := List.countP_pos_iff.2 ⟨m, hm, hq⟩
  omega

variable {c18 : Bool} {n : Nat} {nb : Nat → List Nat}

/-- The hits of the calls for leaf `i`. -/
theorem leaf_hits_le (hnd : ∀ i, (nb i).Nodup) (hirr : ∀ i, i ∉ nb i) (i ca cb : Nat) :
    (CellOp.self i :: (nb i).flatMap fun (j : Nat) => if c18 = true ∧ ¬ i < j then [] else [CellOp.pair i j ⟨0, 0, 0⟩]).countP
      (hits c18 (ca : Int) (cb : Int)) ≤ if i = (if c18 then min ca cb else ca) then 1 else 0 := by
  rw [List.countP_cons, countP_opt]
  by_cases hab : ca = cb
  · subst hab
    have : (nb i).countP (fun j => decide (¬ (c18 = true ∧ ¬ i < j)) && hits c18 (ca : Int) (ca : Int) (.pair (i : Int) (j : Int) ⟨0, 0, 0⟩)) = 0 := by
      rw [List.countP_eq_zero]
      intro j hj
      have hij : i ≠ j := fun e => hirr i (e ▸ hj)
      simp only [hits, Bool.and_eq_true, decide_eq_true_eq, not_and]
      intro _
      omega
    rw [this, Nat.zero_add]
    simp only [min_self, hits, true_and, Nat.cast_inj, ite_self]
    by_cases h : i = ca <;> simp [h]
  · have h0 : hits c18 (ca : Int) (cb : Int) (.self i) = false := by simp [hits]; omega
    rw [h0]
    simp only [Bool.false_eq_true, if_false, Nat.add_zero]
    cases c18
    · simp only [Bool.false_eq_true, if_false, false_and, not_false_eq_true, decide_true, Bool.true_and, hits, Nat.cast_inj, or_false]
      by_cases h : i = ca
      · rw [if_pos h]
        exact countP_le_of_eq (hnd i) cb fun j hj => by have := of_decide_eq_true hj; exact this.2
      · rw [if_neg h, Nat.le_zero, List.countP_eq_zero]
        intro j _
        simp [h]
    · simp only [if_true, true_and, not_not, hits, Nat.cast_inj]
      by_cases h : i = min ca cb
      · rw [if_pos h]
        refine countP_le_of_eq (hnd i) (max ca cb) fun j hj => ?_
        rw [Bool.and_eq_true, decide_eq_true_eq, decide_eq_true_eq] at hj
        omega
      · rw [if_neg h, Nat.le_zero, List.countP_eq_zero]
        intro j _
        rw [Bool.and_eq_true, decide_eq_true_eq, decide_eq_true_eq]
        omega

theorem countP_flatMap_le {X Y : Type} {l : List X} {g : X → List Y} {q : Y → Bool} {r : X → Bool}
    (h : ∀ x ∈ l, (g x).countP q ≤ if r x then 1 else 0) : (l.flatMap g).countP q ≤ l.countP r := by
  induction l with
  | nil => simp
  | cons x l ih =>
    have h1 := h x (by simp)
    have h2 := ih fun y hy => h y (by simp [hy])
    rw [List.flatMap_cons, List.countP_append, List.countP_cons]
    omega

theorem nbOps_most (hnd : ∀ i, (nb i).Nodup) (hirr : ∀ i, i ∉ nb i) (ca cb : Nat) :
    (nbOps c18 n nb).countP (hits c18 (ca : Int) (cb : Int)) ≤ 1 := by
  unfold nbOps
  refine le_trans (countP_flatMap_le (r := fun i => decide (i = if c18 then min ca cb else ca)) fun i _ => ?_) ?_
  · have := leaf_hits_le (c18 := c18) hnd hirr i ca cb
    simpa only [decide_eq_true_eq] using this
  · exact countP_le_of_eq List.nodup_range _ fun j hj => by simpa using hj

theorem nbOps_once (hnd : ∀ i, (nb i).Nodup) (hirr : ∀ i, i ∉ nb i) {ca cb : Nat} (ha : ca < n)
    (hb : ca ≠ cb → cb ∈ nb ca ∧ (cb < n → ca ∈ nb cb)) : (nbOps c18 n nb).countP (hits c18 (ca : Int) (cb : Int)) = 1 := by
  have h1 := nbOps_most (c18 := c18) (n := n) hnd hirr ca cb
  have h2 : 0 < (nbOps c18 n nb).countP (hits c18 (ca : Int) (cb : Int)) := by
    rw [List.countP_pos_iff]
    unfold nbOps
    simp only [List.mem_flatMap, List.mem_range]
    by_cases hab : ca = cb
    · subst hab
      exact ⟨.self ca, ⟨ca, ha, by simp⟩, by simp [hits]⟩
    obtain ⟨m1, m2⟩ := hb hab
    cases c18
    · refine ⟨.pair ca cb ⟨0, 0, 0⟩, ⟨ca, ha, ?_⟩, by simp [hits]⟩
      rw [List.mem_cons]
      exact .inr (List.mem_flatMap.2 ⟨cb, m1, by simp⟩)
    · rcases Nat.lt_or_gt_of_ne hab with hlt | hgt
      · refine ⟨.pair ca cb ⟨0, 0, 0⟩, ⟨ca, ha, ?_⟩, by simp [hits]⟩
        rw [List.mem_cons]
        exact .inr (List.mem_flatMap.2 ⟨cb, m1, by simp [hlt]⟩)
      · refine ⟨.pair cb ca ⟨0, 0, 0⟩, ⟨cb, by omega, ?_⟩, by simp [hits]⟩
        rw [List.mem_cons]
        exact .inr (List.mem_flatMap.2 ⟨ca, m2 (by omega), by simp [hgt]⟩)
  omega

theorem nbOps_valid (hirr : ∀ i, i ∉ nb i) : ∀ op ∈ nbOps c18 n nb, ValidOp op := by
  intro op hop
  unfold nbOps at hop
  obtain ⟨i, -, hop⟩ := List.mem_flatMap.1 hop
  rw [List.mem_cons] at hop
  rcases hop with rfl | hop
  · simp [ValidOp, touched]
  · obtain ⟨j, hj, hop⟩ := List.mem_flatMap.1 hop
    have hij : i ≠ j := fun e => hirr i (e ▸ hj)
    split at hop
    · cases hop
    · rw [List.mem_singleton] at hop
      subst hop
      simp [ValidOp, touched, hij]

theorem nbOps_dir {i j : Int} {dir : V3 Rat} (h : CellOp.pair i j dir ∈ nbOps c18 n nb) : dir = ⟨0, 0, 0⟩ := by
  unfold nbOps at h
  obtain ⟨i, -, hop⟩ := List.mem_flatMap.1 h
  rw [List.mem_cons] at hop
  rcases hop with hop | hop
  · cases hop
  · obtain ⟨j, hj, hop⟩ := List.mem_flatMap.1 hop
    split at hop
    · cases hop
    · rw [List.mem_singleton] at hop
      cases hop; rfl

end counting

section
variable {P : Type}

/-- The numbers of the leaves that are paired with owned leaf `i`. -/
def nbOf (arrange : List Path → List Path) (il : Rat) (owned halo : OTree P) (b hb : Box) (i : Nat) : List Nat :=
  match (leaves owned)[i]? with
  | none => []
  | some l => ((arrange (neighborLeaves owned l.1)).map (leafNo (leaves owned))) ++
      ((arrange (leavesInRange ((boxAt b l.1).grow il) halo hb [])).map fun q => (leaves owned).length + leafNo (leaves halo) q)

theorem leafNo_get {ls : List (Path × List P)} (hn : (ls.map Prod.fst).Nodup) {i : Nat} {l : Path × List P} (h : ls[i]? = some l) :
    leafNo ls l.1 = i := by
  unfold leafNo
  have hi : i < (ls.map Prod.fst).length := by
    rw [List.length_map]; exact (List.getElem?_eq_some_iff.1 h).1
  have : (ls.map Prod.fst)[i] = l.1 := by
    rw [List.getElem_map]
    rw [(List.getElem?_eq_some_iff.1 h).2]
  rw [← this]
  exact hn.idxOf_getElem i hi

theorem leafNo_inj {ls : List (Path × List P)} {p q : Path} (hp : p ∈ ls.map Prod.fst) (hq : q ∈ ls.map Prod.fst)
    (h : leafNo ls p = leafNo ls q) : p = q := by
  unfold leafNo at h
  exact (List.idxOf_inj hp).1 h

theorem leafNo_lt {ls : List (Path × List P)} {p : Path} (hp : p ∈ ls.map Prod.fst) : leafNo ls p < ls.length := by
  unfold leafNo
  have := List.idxOf_lt_length_of_mem hp
  rwa [List.length_map] at this

variable {arrange : List Path → List Path} {il : Rat} {owned halo : OTree P} {b hb : Box}

theorem otOps_eq (c18 : Bool) : otOps c18 arrange il owned halo b hb = nbOps c18 (leaves owned).length (nbOf arrange il owned halo b hb) := by
  unfold otOps nbOps
  have hn := nodup_leaves owned
  have e : leaves owned = (List.range (leaves owned).length).map fun i => (leaves owned).getD i ([], []) := by
    apply List.ext_getElem
    · simp
    · intro i h1 h2
      simp [h1]
  conv_lhs => rw [e]
  rw [List.flatMap_map]
  refine List.flatMap_congr fun i hi => ?_
  have hi : i < (leaves owned).length := List.mem_range.1 hi
  have hget : (leaves owned)[i]? = some ((leaves owned).getD i ([], [])) := by
    simp [hi]
  have hno := leafNo_get hn hget
  rw [← e]
  simp only [hno]
  congr 1
  have : nbOf arrange il owned halo b hb i = ((arrange (neighborLeaves owned ((leaves owned).getD i ([], [])).1)).map (leafNo (leaves owned))) ++
      ((arrange (leavesInRange ((boxAt b ((leaves owned).getD i ([], [])).1).grow il) halo hb [])).map
        fun q => (leaves owned).length + leafNo (leaves halo) q) := by
    unfold nbOf
    rw [hget]
  rw [this, List.flatMap_append, List.flatMap_map, List.flatMap_map]

theorem mem_paths {t : OTree P} {q : Path} : q ∈ (leaves t).map Prod.fst ↔ ∃ ps, nodeAt t q = some (.leaf ps) := by
  rw [List.mem_map]
  constructor
  · rintro ⟨⟨q', ps⟩, h, rfl⟩; exact ⟨ps, mem_leaves.1 h⟩
  · rintro ⟨ps, h⟩; exact ⟨(q, ps), mem_leaves.2 h, rfl⟩

theorem mem_get {ls : List (Path × List P)} {i : Nat} {l : Path × List P} (h : ls[i]? = some l) : l ∈ ls := List.mem_of_getElem? h

variable (ha : ∀ l, (arrange l).Perm l)
include ha

theorem nbOf_nodup (i : Nat) : (nbOf arrange il owned halo b hb i).Nodup := by
  unfold nbOf
  cases h : (leaves owned)[i]? with
  | none => simp
  | some l =>
    obtain ⟨A, psA⟩ := l
    have hA := mem_leaves.1 (mem_get h)
    have n1 : ∀ q ∈ arrange (neighborLeaves owned A), q ∈ (leaves owned).map Prod.fst := fun q hq =>
      mem_paths.2 (neighborLeaves_sound ((ha _).mem_iff.1 hq))
    have n2 : ∀ q ∈ arrange (leavesInRange ((boxAt b A).grow il) halo hb []), q ∈ (leaves halo).map Prod.fst := fun q hq =>
      (leavesInRange_sublist _ _ _ _).subset ((ha _).mem_iff.1 hq)
    simp only
    rw [List.nodup_append]
    refine ⟨?_, ?_, ?_⟩
    · refine List.Nodup.map_on (fun p hp q hq e => leafNo_inj (n1 p hp) (n1 q hq) e) ((ha _).nodup_iff.2 ?_)
      unfold neighborLeaves
      exact List.nodup_dedup _
    · refine List.Nodup.map_on (fun p hp q hq e => leafNo_inj (n2 p hp) (n2 q hq) (by omega)) ((ha _).nodup_iff.2 ?_)
      exact (leavesInRange_sublist _ _ _ _).nodup (nodup_leaves halo)
    · intro x hx y hy
      obtain ⟨p, hp, rfl⟩ := List.mem_map.1 hx
      obtain ⟨q, hq, rfl⟩ := List.mem_map.1 hy
      have := leafNo_lt (n1 p hp)
      omega

theorem nbOf_irrefl (i : Nat) : i ∉ nbOf arrange il owned halo b hb i := by
  unfold nbOf
  cases h : (leaves owned)[i]? with
  | none => simp
  | some l =>
    obtain ⟨A, psA⟩ := l
    have hno := leafNo_get (nodup_leaves owned) h
    have hi : i < (leaves owned).length := (List.getElem?_eq_some_iff.1 h).1
    simp only at hno ⊢
    rw [List.mem_append]
    rintro (hx | hx)
    · obtain ⟨q, hq, e⟩ := List.mem_map.1 hx
      have hq := (ha _).mem_iff.1 hq
      have : q = A := leafNo_inj (mem_paths.2 (neighborLeaves_sound hq)) (mem_paths.2 ⟨psA, mem_leaves.1 (mem_get h)⟩) (by rw [e, hno])
      subst this
      exact neighborLeaves_irrefl (mem_leaves.1 (mem_get h)) hq
    · obtain ⟨q, -, e⟩ := List.mem_map.1 hx
      omega

end

/-- Component-wise distance of the home positions. -/
theorem home_near {cutoff skin : Rat} (hcut : 0 ≤ cutoff) (hskin : 0 ≤ skin) {u v hu hv : V3 Rat} (h1 : 4 * distSq u hu ≤ skin * skin)
    (h2 : 4 * distSq v hv ≤ skin * skin) (h3 : distSq u v < cutoff * cutoff) (d : Ax) : |comp hu d - comp hv d| ≤ cutoff + skin := by
  have key : ∀ u v : V3 Rat, ∀ r : Rat, 0 ≤ r → distSq u v ≤ r * r → |comp u d - comp v d| ≤ r := by
    intro u v r hr h
    unfold distSq at h
    have s1 := sq_nonneg (u.x - v.x)
    have s2 := sq_nonneg (u.y - v.y)
    have s3 := sq_nonneg (u.z - v.z)
    cases d <;> simp only [comp] <;> exact abs_le_of_sq_le_sq (by nlinarith) hr
  have k1 := key u hu (skin / 2) (by linarith) (by nlinarith)
  have k2 := key v hv (skin / 2) (by linarith) (by nlinarith)
  have k3 := key u v cutoff hcut h3.le
  rw [abs_le] at *
  constructor <;> linarith [k1.1, k1.2, k2.1, k2.2, k3.1, k3.2]

section
variable {P : Type} [DecidableEq P] {arrange : List Path → List Path} {il : Rat} {owned halo : OTree P} {b hb : Box}

/-- Number of the leaf that contains a particle. -/
def noOf (owned halo : OTree P) (p : P) : Nat := (leaves owned ++ leaves halo).findIdx fun l => decide (p ∈ l.2)

omit [DecidableEq P] in
theorem cellAt_otPCells (i : Int) :
    (cellAt (otPCells owned halo) i).particles = ((leaves owned ++ leaves halo).map Prod.snd).getD i.toNat [] ∧
    (i.toNat < (leaves owned ++ leaves halo).length → (cellAt (otPCells owned halo) i).hasOwned = true) := by
  unfold cellAt otPCells
  rw [List.getD_eq_getElem?_getD, List.getD_eq_getElem?_getD, List.getElem?_map, List.getElem?_map]
  by_cases h : i.toNat < (leaves owned ++ leaves halo).length
  · rw [List.getElem?_eq_getElem h]
    simp
  · rw [List.getElem?_eq_none (by omega)]
    simp only [Option.map_none, Option.getD_none]
    exact ⟨by trivial, fun h' => absurd h' h⟩

omit [DecidableEq P] in
theorem all_eq : collectAll owned ++ collectAll halo = ((leaves owned ++ leaves halo).map Prod.snd).flatten := by
  rw [collectAll_eq owned [], collectAll_eq halo [], List.map_append, List.flatten_append]
  rfl

theorem noOf_eq (hn : (collectAll owned ++ collectAll halo).Nodup) {i : Nat} {p : P}
    (hp : p ∈ ((leaves owned ++ leaves halo).map Prod.snd).getD i []) : noOf owned halo p = i := by
  rw [all_eq] at hn
  unfold noOf
  generalize leaves owned ++ leaves halo = ls at *
  induction ls generalizing i with
  | nil => simp at hp
  | cons l ls ih =>
    rw [List.map_cons, List.flatten_cons, List.nodup_append] at hn
    rw [List.findIdx_cons]
    cases i with
    | zero =>
      have hp : p ∈ l.2 := by simpa using hp
      simp [hp]
    | succ i =>
      have hp : p ∈ (ls.map Prod.snd).getD i [] := by simpa using hp
      have hnot : p ∉ l.2 := by
        intro h
        exact hn.2.2 p h p (mem_flatten_getD'.2 ⟨_, hp⟩) rfl
      simp [hnot, ih hn.2.1 hp]

theorem ot_cells_ok (hn : (collectAll owned ++ collectAll halo).Nodup) :
    CellsOk (otPCells owned halo) (fun p => (noOf owned halo p : Int)) := by
  refine ⟨fun i => ?_, fun i p hi hp => ?_⟩
  · rw [(cellAt_otPCells i).1]
    rw [all_eq] at hn
    exact nodup_getD hn _
  · rw [(cellAt_otPCells i).1] at hp
    have := noOf_eq hn hp
    omega

theorem noOf_mem {p : P} (hn : (collectAll owned ++ collectAll halo).Nodup) (hp : p ∈ collectAll owned ++ collectAll halo) :
    p ∈ ((leaves owned ++ leaves halo).map Prod.snd).getD (noOf owned halo p) [] := by
  have hn' := hn
  rw [all_eq] at hp
  obtain ⟨k, hk⟩ := mem_flatten_getD'.1 hp
  rw [noOf_eq hn' hk]
  exact hk

/-- The cell functor of the octree traversals (OTC01Traversal.h:46-52, OTC18Traversal.h:46-52, no bidirectional calls). -/
structure OTFunctor (cutoff : Rat) (pos : P → V3 Rat) (own : P → Ownership) (c18 : Bool) (f : CellFunctorCfg P) : Prop where
  cutoff : f.cutoff = cutoff
  newton3 : f.newton3 = c18
  bidirectional : f.bidirectional = false
  sorts : f.Sorts pos
  halo : ∀ p, f.isHalo p = decide (own p = .halo)

variable {pos home : P → V3 Rat} {own : P → Ownership} {cutoff skin : Rat} {c18 : Bool} {f : CellFunctorCfg P}

theorem ot_noDouble (ha : ∀ l, (arrange l).Perm l) (hn : (collectAll owned ++ collectAll halo).Nodup) (hf : OTFunctor cutoff pos own c18 f) :
    NoDoubleCalls (collectAll owned ++ collectAll halo) (otCalls f c18 arrange il owned halo b hb) := by
  have hok := ot_cells_ok hn
  have hv := nbOps_valid (c18 := c18) (n := (leaves owned).length) (nbOf_irrefl (il := il) (owned := owned) (halo := halo) (b := b) (hb := hb) ha)
  have hcalls : ∀ x y, timesReceived (otCalls f c18 arrange il owned halo b hb) x y ≠ 0 →
      x ∈ collectAll owned ++ collectAll halo ∧ y ∈ collectAll owned ++ collectAll halo ∧ x ≠ y := by
    intro x y hx
    obtain ⟨c, hc, hab⟩ := mem_contributions_calls hx
    unfold otCalls CellFunctorCfg.run at hc
    obtain ⟨op, hop, hc⟩ := List.mem_flatMap.1 hc
    rw [otOps_eq] at hop
    have hop : op ∈ nbOps c18 (leaves owned).length (nbOf arrange il owned halo b hb) := by simpa using hop
    obtain ⟨i, j, hi, hj, hne, -⟩ := op_calls hok hf.sorts (hv op hop) hc
    rw [(cellAt_otPCells _).1] at hi hj
    have m1 := mem_flatten_getD'.2 ⟨_, hi⟩
    have m2 := mem_flatten_getD'.2 ⟨_, hj⟩
    rw [← all_eq] at m1 m2
    rcases hab with ⟨rfl, rfl⟩ | ⟨-, rfl, rfl⟩
    · exact ⟨m1, m2, hne⟩
    · exact ⟨m2, m1, hne.symm⟩
  refine ⟨?_, hcalls⟩
  intro x y
  by_cases hab : x = y
  · by_contra hx
    exact (hcalls x y (by omega)).2.2 hab
  unfold otCalls CellFunctorCfg.run
  rw [otOps_eq]
  have e : ([[nbOps c18 (leaves owned).length (nbOf arrange il owned halo b hb)]] : List (List (List CellOp))).flatten.flatten =
      nbOps c18 (leaves owned).length (nbOf arrange il owned halo b hb) := by simp
  rw [e]
  have hboth : (f.newton3 || f.bidirectional) = c18 := by rw [hf.newton3, hf.bidirectional, Bool.or_false]
  refine le_trans (timesReceived_flatMap_le (q := hits (f.newton3 || f.bidirectional) (noOf owned halo x : Int) (noOf owned halo y : Int)) ?_) ?_
  · intro op hop
    exact op_received_le hok hf.sorts hab (hv op hop)
  · rw [hboth]
    exact nbOps_most (nbOf_nodup ha) (nbOf_irrefl ha) _ _

theorem ot_complete (hcut : 0 ≤ cutoff) (hskin : 0 ≤ skin) (hil : 0 < cutoff + skin) (ha : ∀ l, (arrange l).Perm l)
    (hn : (collectAll owned ++ collectAll halo).Nodup)
    (hf : OTFunctor cutoff pos own c18 f) (hg : Good (cutoff + skin) home owned b) (hgh : Good (cutoff + skin) home halo hb)
    (hw : ∀ d, 0 ≤ hb.width d)
    (hm : ∀ p ∈ collectAll owned ++ collectAll halo, 4 * distSq (pos p) (home p) ≤ skin * skin)
    (hh : ∀ p ∈ collectAll halo, own p ≠ .owned) :
    CompleteCalls pos own cutoff (collectAll owned ++ collectAll halo) (otCalls f c18 arrange (cutoff + skin) owned halo b hb) := by
  have hok := ot_cells_ok hn
  have hv := nbOps_valid (c18 := c18) (n := (leaves owned).length)
    (nbOf_irrefl (il := cutoff + skin) (owned := owned) (halo := halo) (b := b) (hb := hb) ha)
  have hno := ot_noDouble (il := cutoff + skin) (b := b) (hb := hb) ha hn hf
  refine ⟨?_, hno.most, hno.mem⟩
  intro x hx y hy hab hxo hyo hd
  have hxo' : x ∈ collectAll owned := by
    rcases List.mem_append.1 hx with h | h
    · exact h
    · exact absurd hxo (hh x h)
  have near : ∀ d, |comp (home x) d - comp (home y) d| ≤ cutoff + skin := home_near hcut hskin (hm x hx) (hm y hy) hd
  -- the leaf of an owned particle
  have leafOf : ∀ p ∈ collectAll owned, ∃ A ps, nodeAt owned A = some (.leaf ps) ∧ p ∈ ps ∧ noOf owned halo p < (leaves owned).length ∧
      (leaves owned)[noOf owned halo p]? = some (A, ps) := by
    intro p hp
    rw [collectAll_eq owned [], List.mem_flatMap] at hp
    obtain ⟨⟨A, ps⟩, hA, hp⟩ := hp
    change (A, ps) ∈ leaves owned at hA
    obtain ⟨i, hi, e⟩ := List.getElem_of_mem hA
    have : p ∈ ((leaves owned ++ leaves halo).map Prod.snd).getD i [] := by
      rw [List.getD_eq_getElem?_getD, List.getElem?_map, List.getElem?_append_left hi, List.getElem?_eq_getElem hi]
      show p ∈ ((leaves owned)[i].2)
      rw [e]; exact hp
    rw [noOf_eq hn this]
    refine ⟨A, ps, mem_leaves.1 hA, hp, hi, ?_⟩
    rw [List.getElem?_eq_getElem hi]
    exact congrArg some e
  obtain ⟨A, psA, hA, hxA, iA, gA⟩ := leafOf x hxo'
  -- the other leaf is paired with it
  have pairs : ∀ {p q : P} {B : Path} {psB : List P}, (∀ d, |comp (home p) d - comp (home q) d| ≤ cutoff + skin) → nodeAt owned B = some (.leaf psB) →
      p ∈ psB → (leaves owned)[noOf owned halo p]? = some (B, psB) → q ∈ collectAll owned ++ collectAll halo →
      noOf owned halo p ≠ noOf owned halo q → noOf owned halo q ∈ nbOf arrange (cutoff + skin) owned halo b hb (noOf owned halo p) := by
    intro p q B psB hpq hB hpB gB hq hne
    unfold nbOf
    rw [gB, List.mem_append]
    rcases List.mem_append.1 hq with h | h
    · obtain ⟨C, psC, hC, hqC, iC, gC⟩ := leafOf q h
      left
      refine List.mem_map.2 ⟨C, (ha _).mem_iff.2 ?_, leafNo_get (nodup_leaves owned) gC⟩
      have hBC : B ≠ C := by
        rintro rfl
        rw [← leafNo_get (nodup_leaves owned) gB, ← leafNo_get (nodup_leaves owned) gC] at hne
        exact hne rfl
      exact neighborLeaves_complete hB hC hBC (hg.touch hil hB hC hBC hpB hqC hpq)
    · right
      rw [collectAll_eq halo [], List.mem_flatMap] at h
      obtain ⟨⟨C, psC⟩, hC, hqC⟩ := h
      change (C, psC) ∈ leaves halo at hC
      obtain ⟨i, hi, e⟩ := List.getElem_of_mem hC
      have : q ∈ ((leaves owned ++ leaves halo).map Prod.snd).getD ((leaves owned).length + i) [] := by
        rw [List.getD_eq_getElem?_getD, List.getElem?_map, List.getElem?_append_right (by omega), Nat.add_sub_cancel_left,
          List.getElem?_eq_getElem hi]
        show q ∈ ((leaves halo)[i].2)
        rw [e]; exact hqC
      rw [noOf_eq hn this]
      have hC' := mem_leaves.1 hC
      refine List.mem_map.2 ⟨C, (ha _).mem_iff.2 ?_, ?_⟩
      · have := leavesInRange_complete (r := (boxAt b B).grow (cutoff + skin)) (b := hb) (q := []) hw hC' ?_
        · simpa using this
        · rw [enclosesVolume_iff]
          intro d
          have i1 := inBox_iff.1 (hg.at hB p hpB) d
          have i2 := inBox_iff.1 (hgh.at hC' q hqC) d
          have hd' := abs_le.1 (hpq d)
          have g1 : comp ((boxAt b B).grow (cutoff + skin)).lo d = comp (boxAt b B).lo d - (cutoff + skin) := by cases d <;> rfl
          have g2 : comp ((boxAt b B).grow (cutoff + skin)).hi d = comp (boxAt b B).hi d + (cutoff + skin) := by cases d <;> rfl
          rw [g1, g2]
          refine ⟨?_, ?_, ?_, ?_⟩ <;> linarith [i1.1, i1.2, i2.1, i2.2, hd'.1, hd'.2]
      · have := leafNo_get (nodup_leaves halo) (i := i) (l := (C, psC)) (by
          rw [List.getElem?_eq_getElem hi]; exact congrArg some e)
        simp only at this
        rw [this]
  unfold otCalls CellFunctorCfg.run
  rw [otOps_eq]
  have e : ([[nbOps c18 (leaves owned).length (nbOf arrange (cutoff + skin) owned halo b hb)]] : List (List (List CellOp))).flatten.flatten =
      nbOps c18 (leaves owned).length (nbOf arrange (cutoff + skin) owned halo b hb) := by simp
  rw [e]
  have hboth : (f.newton3 || f.bidirectional) = c18 := by rw [hf.newton3, hf.bidirectional, Bool.or_false]
  rw [timesReceived_flatMap_indicator (q := hits (f.newton3 || f.bidirectional) (noOf owned halo x : Int) (noOf owned halo y : Int))]
  · rw [hboth]
    refine nbOps_once (nbOf_nodup ha) (nbOf_irrefl ha) iA fun hne => ⟨pairs near hA hxA gA hy hne, fun hlt => ?_⟩
    have hyo' : y ∈ collectAll owned := by
      have hmem := noOf_mem hn hy
      rw [List.getD_eq_getElem?_getD, List.getElem?_map, List.getElem?_append_left hlt, List.getElem?_eq_getElem hlt] at hmem
      rw [collectAll_eq owned [], List.mem_flatMap]
      exact ⟨_, List.getElem_mem hlt, by simpa using hmem⟩
    obtain ⟨B, psB, hB, hyB, -, gB⟩ := leafOf y hyo'
    exact pairs (fun d => by rw [abs_sub_comm]; exact near d) hB hyB gB hx hne.symm
  · intro op hop
    refine op_received hok hf.sorts hab ?_ ?_ ?_ (by rw [hf.halo, hxo]; rfl) (by unfold Near; rw [hf.cutoff]; exact hd.le) (hv op hop) ?_
    · rw [(cellAt_otPCells _).1, Int.toNat_natCast]; exact noOf_mem hn hx
    · rw [(cellAt_otPCells _).1, Int.toNat_natCast]; exact noOf_mem hn hy
    · refine (cellAt_otPCells _).2 ?_
      rw [Int.toNat_natCast, List.length_append]; omega
    · rintro i j dir rfl
      rw [nbOps_dir hop]
      intro p _ q _ hlt
      simp [V3.dot] at hlt

end
end Verif.Octree
