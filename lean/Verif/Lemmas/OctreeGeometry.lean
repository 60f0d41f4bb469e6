import Verif.Lemmas.OctreeNeighbors
import Mathlib.Tactic.FieldSimp
import Mathlib.Data.List.Perm.Basic
import Mathlib.Data.List.Nodup
/-! Boxes of octree nodes, lists of leaves. -/
namespace Verif.Octree
open Spec

/-- Component along an axis. -/
def comp (v : V3 Rat) : Ax → Rat
  | .x => v.x
  | .y => v.y
  | .z => v.z

/-- Width along an axis. -/
def Box.width (b : Box) (d : Ax) : Rat := comp b.hi d - comp b.lo d

theorem inBox_iff {p lo hi : V3 Rat} : InBox p lo hi ↔ ∀ d, comp lo d ≤ comp p d ∧ comp p d < comp hi d := by
  unfold InBox
  constructor
  · rintro ⟨h1, h2, h3⟩ d
    cases d <;> assumption
  · intro h
    exact ⟨h .x, h .y, h .z⟩

theorem vertexToIndex_all : vertexToIndex .LDB = 0 ∧ vertexToIndex .LDF = 1 ∧ vertexToIndex .LUB = 2 ∧ vertexToIndex .LUF = 3 ∧
    vertexToIndex .RDB = 4 ∧ vertexToIndex .RDF = 5 ∧ vertexToIndex .RUB = 6 ∧ vertexToIndex .RUF = 7 := by decide

theorem childBox_lo (b : Box) (o : Vertex) (d : Ax) : comp (childBox b o).lo d = comp b.lo d + (bit d o : Rat) * (b.width d / 2) := by
  cases o <;> cases d <;> simp [childBox, childBoxNo, vertexToIndex_all, comp, bit, Box.width] <;> ring

theorem childBox_hi (b : Box) (o : Vertex) (d : Ax) : comp (childBox b o).hi d = comp (childBox b o).lo d + b.width d / 2 := by
  rw [childBox_lo]
  cases o <;> cases d <;> simp [childBox, childBoxNo, vertexToIndex_all, comp, bit, Box.width] <;> ring

theorem childBox_width (b : Box) (o : Vertex) (d : Ax) : (childBox b o).width d = b.width d / 2 := by
  unfold Box.width
  rw [childBox_hi]
  unfold Box.width
  ring

theorem boxAt_width (b : Box) (q : Path) (d : Ax) : (boxAt b q).width d = b.width d / 2 ^ q.length := by
  induction q with
  | nil => simp [boxAt]
  | cons o q ih =>
    rw [boxAt, childBox_width, ih, List.length_cons, pow_succ, div_div]

theorem boxAt_lo (b : Box) (q : Path) (d : Ax) : comp (boxAt b q).lo d = comp b.lo d + (num d q : Rat) * (b.width d / 2 ^ q.length) := by
  induction q with
  | nil => simp [boxAt, num]
  | cons o q ih =>
    rw [boxAt, childBox_lo, ih, boxAt_width, num, List.length_cons, pow_succ]
    push_cast
    ring

theorem boxAt_hi (b : Box) (q : Path) (d : Ax) : comp (boxAt b q).hi d = comp (boxAt b q).lo d + b.width d / 2 ^ q.length := by
  rw [← boxAt_width]
  unfold Box.width
  ring

theorem boxAt_append (b : Box) (s q : Path) : boxAt b (s ++ q) = boxAt (boxAt b q) s := by
  induction s with
  | nil => rfl
  | cons o s ih => rw [List.cons_append, boxAt, ih, boxAt]

theorem tooSmall_false {il : Rat} {b : Box} : tooSmall il b = false ↔ ∀ d, il ≤ b.width d / 2 := by
  unfold tooSmall Box.width
  rw [decide_eq_false_iff_not]
  push Not
  constructor
  · rintro ⟨h1, h2, h3⟩ d
    cases d <;> simp only [comp] <;> linarith
  · intro h
    have h1 := h .x; have h2 := h .y; have h3 := h .z
    simp only [comp] at h1 h2 h3
    refine ⟨?_, ?_, ?_⟩ <;> linarith

section
variable {P : Type}

/-- Every particle is in the box of its leaf, and only nodes of at least twice the interaction length are divided. -/
def Good (il : Rat) (pos : P → V3 Rat) : OTree P → Box → Prop
  | .leaf ps, b => ∀ p ∈ ps, InBox (pos p) b.lo b.hi
  | .inner c, b => tooSmall il b = false ∧ ∀ o, Good il pos (c o) (childBox b o)

theorem Good.at {il : Rat} {pos : P → V3 Rat} {t : OTree P} {b : Box} (h : Good il pos t b) {q : Path} {n : OTree P}
    (hq : nodeAt t q = some n) : Good il pos n (boxAt b q) := by
  induction q generalizing n with
  | nil => simp only [nodeAt, Option.some.injEq] at hq; subst hq; exact h
  | cons o q ih =>
    obtain ⟨c, hc, rfl⟩ := nodeAt_tail hq
    exact (ih hc).2 o

/-- A leaf below the root is at least as wide as the interaction length. -/
theorem Good.wide {il : Rat} {pos : P → V3 Rat} {t : OTree P} {b : Box} (h : Good il pos t b) {q : Path} {n : OTree P}
    (hq : nodeAt t q = some n) (h0 : q ≠ []) (d : Ax) : il ≤ b.width d / 2 ^ q.length := by
  cases q with
  | nil => contradiction
  | cons o q =>
    obtain ⟨c, hc, -⟩ := nodeAt_tail hq
    have := tooSmall_false.1 (h.at hc).1 d
    rw [boxAt_width, div_div] at this
    rwa [List.length_cons, pow_succ]

/-- Leaves that contain particles not farther apart than the interaction length touch each other. -/
theorem Good.touch {il : Rat} (hil : 0 < il) {pos : P → V3 Rat} {t : OTree P} {b : Box} (h : Good il pos t b) {A B : Path}
    {psA psB : List P} (hA : nodeAt t A = some (.leaf psA)) (hB : nodeAt t B = some (.leaf psB)) (hAB : A ≠ B) {x y : P} (hx : x ∈ psA)
    (hy : y ∈ psB) (hd : ∀ d, |comp (pos x) d - comp (pos y) d| ≤ il) : Touch A B := by
  have key : ∀ {A B : Path} {psA psB : List P} {x y : P}, nodeAt t A = some (.leaf psA) → nodeAt t B = some (.leaf psB) → A ≠ B →
      x ∈ psA → y ∈ psB → (∀ d, |comp (pos x) d - comp (pos y) d| ≤ il) → ∀ d, num d A * 2 ^ B.length ≤ (num d B + 1) * 2 ^ A.length := by
    intro A B psA psB x y hA hB hAB hx hy hd d
    have hA0 : A ≠ [] := by
      rintro rfl
      have : nodeAt t (B ++ []) = some (.leaf psB) := by simpa using hB
      obtain ⟨c, hc⟩ := gray_of_descendant (fun e => hAB e.symm) this
      rw [hA] at hc; cases hc
    have hB0 : B ≠ [] := by
      rintro rfl
      have : nodeAt t (A ++ []) = some (.leaf psA) := by simpa using hA
      obtain ⟨c, hc⟩ := gray_of_descendant hAB this
      rw [hB] at hc; cases hc
    have wA := h.wide hA hA0 d
    have wB := h.wide hB hB0 d
    have iA := inBox_iff.1 (h.at hA x hx) d
    have iB := inBox_iff.1 (h.at hB y hy) d
    rw [boxAt_hi, boxAt_lo] at iA iB
    have hxy := (abs_le.1 (hd d)).2
    have pA : (0 : Rat) < 2 ^ A.length := by positivity
    have pB : (0 : Rat) < 2 ^ B.length := by positivity
    set W := b.width d
    by_contra hc
    push Not at hc
    have hc' : (num d B + 1) * 2 ^ A.length + 1 ≤ num d A * 2 ^ B.length := hc
    -- distance between the two boxes
    have gap : (num d A : Rat) * (W / 2 ^ A.length) - (num d B + 1) * (W / 2 ^ B.length) < il := by
      have := iA.1; have := iB.2
      nlinarith
    rcases le_total A.length B.length with hl | hl
    · obtain ⟨k, hk⟩ := Nat.exists_eq_add_of_le hl
      have hq : (num d B : Rat) + 1 + 1 ≤ num d A * 2 ^ k := by
        rw [hk, pow_add] at hc'
        have hi : num d B + 1 + 1 ≤ num d A * 2 ^ k := by
          have pA' : (0 : Int) < 2 ^ A.length := by positivity
          by_contra hcc
          push Not at hcc
          have : num d A * 2 ^ k ≤ num d B + 1 := by omega
          have := mul_le_mul_of_nonneg_right this pA'.le
          nlinarith
        exact_mod_cast hi
      have e : W / 2 ^ A.length = 2 ^ k * (W / 2 ^ B.length) := by
        rw [hk, pow_add]; field_simp
      rw [e] at gap
      have : 0 < W / 2 ^ B.length := lt_of_lt_of_le hil wB
      nlinarith
    · obtain ⟨k, hk⟩ := Nat.exists_eq_add_of_le hl
      have hq : ((num d B : Rat) + 1) * 2 ^ k + 1 ≤ num d A := by
        rw [hk, pow_add] at hc'
        have hi : (num d B + 1) * 2 ^ k + 1 ≤ num d A := by
          have pB' : (0 : Int) < 2 ^ B.length := by positivity
          by_contra hcc
          push Not at hcc
          have : num d A ≤ (num d B + 1) * 2 ^ k := by omega
          have := mul_le_mul_of_nonneg_right this pB'.le
          nlinarith
        exact_mod_cast hi
      have e : W / 2 ^ B.length = 2 ^ k * (W / 2 ^ A.length) := by
        rw [hk, pow_add]; field_simp
      rw [e] at gap
      have : 0 < W / 2 ^ A.length := lt_of_lt_of_le hil wA
      nlinarith
  intro d
  exact ⟨key hA hB hAB hx hy hd d, key hB hA hAB.symm hy hx (fun d => by rw [abs_sub_comm]; exact hd d) d⟩

/-! ### Lists of leaves -/

theorem nodeAt_append (t : OTree P) (s q : Path) : nodeAt t (s ++ q) = (nodeAt t q).bind fun n => nodeAt n s := by
  induction s with
  | nil =>
    rw [List.nil_append]
    cases nodeAt t q <;> rfl
  | cons o s ih =>
    rw [List.cons_append, nodeAt, ih]
    cases nodeAt t q with
    | none => rfl
    | some n => simp only [Option.bind_some, nodeAt]

theorem mem_leavesFrom {n : OTree P} {q x : Path} {ps : List P} :
    (x, ps) ∈ leavesFrom n q ↔ ∃ s, x = s ++ q ∧ nodeAt n s = some (.leaf ps) := by
  induction n generalizing q with
  | leaf ps' =>
    simp only [leavesFrom, List.mem_singleton, Prod.mk.injEq]
    constructor
    · rintro ⟨rfl, rfl⟩; exact ⟨[], rfl, rfl⟩
    · rintro ⟨s, rfl, h⟩
      have : s = [] := by
        by_contra h0
        obtain ⟨c, hc⟩ := gray_of_descendant (q := []) h0 (by simpa using h)
        simp [nodeAt] at hc
      subst this
      simp only [nodeAt, Option.some.injEq, OTree.leaf.injEq] at h
      exact ⟨rfl, h.symm⟩
  | inner c ih =>
    simp only [leavesFrom, List.mem_flatMap]
    constructor
    · rintro ⟨o, -, h⟩
      obtain ⟨s, rfl, hs⟩ := (ih o).1 h
      refine ⟨s ++ [o], by simp, ?_⟩
      rw [nodeAt_append]
      simpa [nodeAt] using hs
    · rintro ⟨s, rfl, h⟩
      rcases List.eq_nil_or_concat s with rfl | ⟨s', o, rfl⟩
      · simp [nodeAt] at h
      · rw [List.concat_eq_append, nodeAt_append] at h
        refine ⟨o, by cases o <;> decide, (ih o).2 ⟨s', by simp, by simpa [nodeAt] using h⟩⟩

theorem mem_leaves {t : OTree P} {q : Path} {ps : List P} : (q, ps) ∈ leaves t ↔ nodeAt t q = some (.leaf ps) := by
  unfold leaves
  rw [mem_leavesFrom]
  constructor
  · rintro ⟨s, rfl, h⟩; simpa using h
  · intro h; exact ⟨q, by simp, h⟩

theorem nodup_vertices : vertices.Nodup := by decide

theorem nodup_leavesFrom (n : OTree P) (q : Path) : ((leavesFrom n q).map Prod.fst).Nodup := by
  induction n generalizing q with
  | leaf ps => simp [leavesFrom]
  | inner c ih =>
    rw [leavesFrom, List.map_flatMap, List.nodup_flatMap]
    refine ⟨fun o _ => ih o _, ?_⟩
    refine nodup_vertices.imp_of_mem ?_
    intro o o' _ _ hoo' x hx hx'
    obtain ⟨⟨x1, ps1⟩, h1, e1⟩ := List.mem_map.1 hx
    obtain ⟨⟨x2, ps2⟩, h2, e2⟩ := List.mem_map.1 hx'
    obtain ⟨s1, r1, -⟩ := mem_leavesFrom.1 h1
    obtain ⟨s2, r2, -⟩ := mem_leavesFrom.1 h2
    simp only at e1 e2
    rw [← e1] at e2
    rw [r1, r2] at e2
    have : (s2 ++ [o']) ++ q = (s1 ++ [o]) ++ q := by simpa using e2
    have := List.append_cancel_right this
    have := (List.append_inj' this rfl).2
    simp only [List.cons.injEq, and_true] at this
    exact hoo' this.symm

theorem nodup_leaves (t : OTree P) : ((leaves t).map Prod.fst).Nodup := nodup_leavesFrom t []

theorem collectAll_eq (n : OTree P) (q : Path) : collectAll n = (leavesFrom n q).flatMap Prod.snd := by
  induction n generalizing q with
  | leaf ps => simp [collectAll, leavesFrom]
  | inner c ih =>
    rw [collectAll, leavesFrom, List.flatMap_assoc]
    exact List.flatMap_congr fun o _ => ih o (o :: q)

/-! ### Leaves in a range -/

theorem enclosesVolume_iff {a b : Box} :
    enclosesVolume a b = true ↔ ∀ d, comp a.lo d < comp a.hi d ∧ comp a.lo d < comp b.hi d ∧ comp b.lo d < comp a.hi d ∧ comp b.lo d < comp b.hi d := by
  unfold enclosesVolume
  rw [decide_eq_true_eq]
  have h : ∀ p q r s : Rat, 0 < min p q - max r s ↔ (r < p ∧ r < q ∧ s < p ∧ s < q) := by
    intro p q r s
    rw [sub_pos, lt_min_iff, max_lt_iff, max_lt_iff]
    tauto
  rw [h, h, h]
  constructor
  · rintro ⟨h1, h2, h3⟩ d
    cases d <;> simp only [comp] <;> tauto
  · intro hh
    have h1 := hh .x; have h2 := hh .y; have h3 := hh .z
    simp only [comp] at h1 h2 h3
    tauto

theorem boxAt_sub {b : Box} (hb : ∀ d, 0 ≤ b.width d) (s : Path) (d : Ax) :
    comp b.lo d ≤ comp (boxAt b s).lo d ∧ comp (boxAt b s).hi d ≤ comp b.hi d := by
  have hp : (0 : Rat) < 2 ^ s.length := by positivity
  have h0 : 0 ≤ b.width d / 2 ^ s.length := div_nonneg (hb d) hp.le
  have r := num_range d s
  have r1 : (0 : Rat) ≤ num d s := by exact_mod_cast r.1
  have r2 : (num d s : Rat) + 1 ≤ 2 ^ s.length := by exact_mod_cast r.2
  have e : 2 ^ s.length * (b.width d / 2 ^ s.length) = b.width d := by field_simp
  rw [boxAt_hi, boxAt_lo]
  have hw : comp b.hi d = comp b.lo d + b.width d := by unfold Box.width; ring
  constructor
  · nlinarith
  · rw [hw]
    nlinarith

theorem childBox_pos {b : Box} (hb : ∀ d, 0 ≤ b.width d) (o : Vertex) (d : Ax) : 0 ≤ (childBox b o).width d := by
  rw [childBox_width]
  exact div_nonneg (hb d) (by norm_num)

theorem leavesInRange_complete {r b : Box} {n : OTree P} {q s : Path} {ps : List P} (hb : ∀ d, 0 ≤ b.width d)
    (hs : nodeAt n s = some (.leaf ps)) (hr : enclosesVolume (boxAt b s) r = true) : s ++ q ∈ leavesInRange r n b q := by
  induction n generalizing b q s with
  | leaf ps' =>
    have : s = [] := by
      by_contra h0
      obtain ⟨c, hc⟩ := gray_of_descendant (q := []) h0 (by simpa using hs)
      simp [nodeAt] at hc
    subst this
    simp only [boxAt] at hr
    simp [leavesInRange, hr]
  | inner c ih =>
    rcases List.eq_nil_or_concat s with rfl | ⟨s', o, rfl⟩
    · simp [nodeAt] at hs
    · rw [List.concat_eq_append] at hs hr ⊢
      rw [nodeAt_append] at hs
      rw [boxAt_append] at hr
      simp only [leavesInRange, List.mem_flatMap]
      refine ⟨o, by cases o <;> decide, ?_⟩
      have hch : enclosesVolume (childBox b o) r = true := by
        rw [enclosesVolume_iff] at hr ⊢
        intro d
        obtain ⟨h1, h2, h3, h4⟩ := hr d
        have hsub := boxAt_sub (childBox_pos hb o) s' d
        simp only [boxAt] at h1 h2 h3 h4
        refine ⟨by linarith, by linarith, by linarith, h4⟩
      rw [if_pos hch, List.append_assoc, List.singleton_append]
      exact ih o (childBox_pos hb o) (by simpa [nodeAt] using hs) (by simpa [boxAt] using hr)

theorem leavesInRange_sublist (r b : Box) (n : OTree P) (q : Path) : (leavesInRange r n b q).Sublist ((leavesFrom n q).map Prod.fst) := by
  induction n generalizing b q with
  | leaf ps => simp only [leavesInRange, leavesFrom]; split <;> simp
  | inner c ih =>
    rw [leavesInRange, leavesFrom, List.map_flatMap]
    have : ∀ l : List Vertex, (l.flatMap fun o => if enclosesVolume (childBox b o) r then leavesInRange r (c o) (childBox b o) (o :: q) else []).Sublist
        (l.flatMap fun o => (leavesFrom (c o) (o :: q)).map Prod.fst) := by
      intro l
      induction l with
      | nil => simp
      | cons o l ihl =>
        rw [List.flatMap_cons, List.flatMap_cons]
        refine List.Sublist.append ?_ ihl
        split
        · exact ih o _ _
        · exact List.nil_sublist _
    exact this _

end
end Verif.Octree
