import Verif.Model.Octree
import Mathlib.Tactic.Linarith
import Mathlib.Tactic.Ring
import Mathlib.Data.List.Dedup
/-!
Samet's neighbour search on octrees: nodes as cells of a grid of `2 ^ level` cells per dimension.
-/
namespace Verif.Octree

/-- The three axes. -/
inductive Ax
  | x | y | z
deriving DecidableEq

/-- Bit of an octant: 1 for the upper half along the axis. -/
def bit : Ax → Vertex → Int
  | .x, .LDB | .x, .LDF | .x, .LUB | .x, .LUF => 0
  | .x, _ => 1
  | .y, .LDB | .y, .LDF | .y, .RDB | .y, .RDF => 0
  | .y, _ => 1
  | .z, .LDB | .z, .LUB | .z, .RDB | .z, .RUB => 0
  | .z, _ => 1

/-- Index of a node among the nodes of its level along an axis. -/
def num (d : Ax) : Path → Int
  | [] => 0
  | o :: q => 2 * num d q + bit d o

/-- Direction of a face. -/
def faceVec : Face → Ax → Int
  | .L, .x => -1
  | .R, .x => 1
  | .D, .y => -1
  | .U, .y => 1
  | .B, .z => -1
  | .F, .z => 1
  | _, _ => 0

/-- The two faces of an edge. -/
def edgeFaces : Edge → Face × Face
  | .LD => (.L, .D)
  | .LU => (.L, .U)
  | .LB => (.L, .B)
  | .LF => (.L, .F)
  | .RD => (.R, .D)
  | .RU => (.R, .U)
  | .RB => (.R, .B)
  | .RF => (.R, .F)
  | .DB => (.D, .B)
  | .DF => (.D, .F)
  | .UB => (.U, .B)
  | .UF => (.U, .F)

/-- The direction a face, edge or vertex stands for. -/
def dirVec : Any → Ax → Int
  | .face f, d => faceVec f d
  | .edge e, d => faceVec (edgeFaces e).1 d + faceVec (edgeFaces e).2 d
  | .vertex v, d => 2 * bit d v - 1

/-- What has to be done one level higher. -/
def carry (v : Ax → Int) (o : Vertex) (d : Ax) : Int :=
  if v d = 1 ∧ bit d o = 1 then 1 else if v d = -1 ∧ bit d o = 0 then -1 else 0

theorem bit_cases (d : Ax) (o : Vertex) : bit d o = 0 ∨ bit d o = 1 := by cases d <;> cases o <;> simp [bit]

theorem bit_inj {o o' : Vertex} (h : ∀ d, bit d o = bit d o') : o = o' := by
  have hx := h .x; have hy := h .y; have hz := h .z
  cases o <;> cases o' <;> first | rfl | (exfalso; revert hx hy hz; decide)

theorem dirVec_cases (a : Any) (d : Ax) : dirVec a d = -1 ∨ dirVec a d = 0 ∨ dirVec a d = 1 := by
  cases a with
  | face f => cases f <;> cases d <;> decide
  | edge e => cases e <;> cases d <;> decide
  | vertex v => cases v <;> cases d <;> decide

theorem dirVec_ne (a : Any) : ∃ d, dirVec a d ≠ 0 := by
  cases a with
  | face f => cases f <;> first | exact ⟨.x, by decide⟩ | exact ⟨.y, by decide⟩ | exact ⟨.z, by decide⟩
  | edge e => cases e <;> first | exact ⟨.x, by decide⟩ | exact ⟨.y, by decide⟩ | exact ⟨.z, by decide⟩
  | vertex v => cases v <;> exact ⟨.x, by decide⟩

/-- Every direction is a face, an edge or a vertex. -/
theorem exists_dir {v : Ax → Int} (hv : ∀ d, v d = -1 ∨ v d = 0 ∨ v d = 1) (hne : ∃ d, v d ≠ 0) : ∃ a : Any, ∀ d, dirVec a d = v d := by
  have key : ∀ a : Any, dirVec a .x = v .x → dirVec a .y = v .y → dirVec a .z = v .z → ∃ a : Any, ∀ d, dirVec a d = v d :=
    fun a h1 h2 h3 => ⟨a, fun d => by cases d <;> assumption⟩
  have hz : ¬ (v .x = 0 ∧ v .y = 0 ∧ v .z = 0) := by
    rintro ⟨h1, h2, h3⟩
    obtain ⟨d, hd⟩ := hne
    cases d <;> contradiction
  rcases hv .x with hx | hx | hx <;> rcases hv .y with hy | hy | hy <;> rcases hv .z with hz' | hz' | hz'
  · exact key (.vertex .LDB) (by rw [hx]; decide) (by rw [hy]; decide) (by rw [hz']; decide)
  · exact key (.edge .LD) (by rw [hx]; decide) (by rw [hy]; decide) (by rw [hz']; decide)
  · exact key (.vertex .LDF) (by rw [hx]; decide) (by rw [hy]; decide) (by rw [hz']; decide)
  · exact key (.edge .LB) (by rw [hx]; decide) (by rw [hy]; decide) (by rw [hz']; decide)
  · exact key (.face .L) (by rw [hx]; decide) (by rw [hy]; decide) (by rw [hz']; decide)
  · exact key (.edge .LF) (by rw [hx]; decide) (by rw [hy]; decide) (by rw [hz']; decide)
  · exact key (.vertex .LUB) (by rw [hx]; decide) (by rw [hy]; decide) (by rw [hz']; decide)
  · exact key (.edge .LU) (by rw [hx]; decide) (by rw [hy]; decide) (by rw [hz']; decide)
  · exact key (.vertex .LUF) (by rw [hx]; decide) (by rw [hy]; decide) (by rw [hz']; decide)
  · exact key (.edge .DB) (by rw [hx]; decide) (by rw [hy]; decide) (by rw [hz']; decide)
  · exact key (.face .D) (by rw [hx]; decide) (by rw [hy]; decide) (by rw [hz']; decide)
  · exact key (.edge .DF) (by rw [hx]; decide) (by rw [hy]; decide) (by rw [hz']; decide)
  · exact key (.face .B) (by rw [hx]; decide) (by rw [hy]; decide) (by rw [hz']; decide)
  · exact absurd ⟨hx, hy, hz'⟩ hz
  · exact key (.face .F) (by rw [hx]; decide) (by rw [hy]; decide) (by rw [hz']; decide)
  · exact key (.edge .UB) (by rw [hx]; decide) (by rw [hy]; decide) (by rw [hz']; decide)
  · exact key (.face .U) (by rw [hx]; decide) (by rw [hy]; decide) (by rw [hz']; decide)
  · exact key (.edge .UF) (by rw [hx]; decide) (by rw [hy]; decide) (by rw [hz']; decide)
  · exact key (.vertex .RDB) (by rw [hx]; decide) (by rw [hy]; decide) (by rw [hz']; decide)
  · exact key (.edge .RD) (by rw [hx]; decide) (by rw [hy]; decide) (by rw [hz']; decide)
  · exact key (.vertex .RDF) (by rw [hx]; decide) (by rw [hy]; decide) (by rw [hz']; decide)
  · exact key (.edge .RB) (by rw [hx]; decide) (by rw [hy]; decide) (by rw [hz']; decide)
  · exact key (.face .R) (by rw [hx]; decide) (by rw [hy]; decide) (by rw [hz']; decide)
  · exact key (.edge .RF) (by rw [hx]; decide) (by rw [hy]; decide) (by rw [hz']; decide)
  · exact key (.vertex .RUB) (by rw [hx]; decide) (by rw [hy]; decide) (by rw [hz']; decide)
  · exact key (.edge .RU) (by rw [hx]; decide) (by rw [hy]; decide) (by rw [hz']; decide)
  · exact key (.vertex .RUF) (by rw [hx]; decide) (by rw [hy]; decide) (by rw [hz']; decide)

/-! ### The tables -/

/-- `REFLECT` flips the bits along the axes of the direction. -/
theorem reflect_bit (a : Any) (o : Vertex) (d : Ax) :
    bit d (REFLECT a o) = if dirVec a d = 0 then bit d o else 1 - bit d o := by
  cases a with
  | face f => cases f <;> cases o <;> cases d <;> decide
  | edge e => cases e <;> cases o <;> cases d <;> decide
  | vertex v => cases v <;> cases o <;> cases d <;> decide

theorem adj_face {f : Face} {o : Vertex} (d : Ax) :
    carry (dirVec (.face f)) o d = if ADJ (.face f) o then dirVec (.face f) d else 0 := by
  cases f <;> cases o <;> cases d <;> decide

theorem adj_edge {e : Edge} {o : Vertex} (d : Ax) :
    carry (dirVec (.edge e)) o d =
      if ADJ (.edge e) o then dirVec (.edge e) d
      else match COMMON_FACE (.edge e) o with
        | some f => dirVec (.face f) d
        | none => 0 := by
  cases e <;> cases o <;> cases d <;> decide

theorem adj_vertex {v : Vertex} {o : Vertex} (d : Ax) :
    carry (dirVec (.vertex v)) o d =
      if ADJ (.vertex v) o then dirVec (.vertex v) d
      else match COMMON_EDGE v o with
        | some e => dirVec (.edge e) d
        | none => match COMMON_FACE (.vertex v) o with
          | some f => dirVec (.face f) d
          | none => 0 := by
  cases v <;> cases o <;> cases d <;> decide

/-- The sons in the direction from which the search came. -/
theorem mem_allowed {a : Any} {o : Vertex} (h : ∀ d, (dirVec a d = 1 → bit d o = 0) ∧ (dirVec a d = -1 → bit d o = 1)) :
    o ∈ allowedDirections (oppositeDirection a) := by
  have hx := h .x; have hy := h .y; have hz := h .z
  cases a with
  | face f => cases f <;> cases o <;> revert hx hy hz <;> decide
  | edge e => cases e <;> cases o <;> revert hx hy hz <;> decide
  | vertex v => cases v <;> cases o <;> revert hx hy hz <;> decide

/-! ### Numbers of nodes -/

theorem num_range (d : Ax) (p : Path) : 0 ≤ num d p ∧ num d p < 2 ^ p.length := by
  induction p with
  | nil => simp [num]
  | cons o q ih =>
    simp only [num, List.length_cons, pow_succ]
    rcases bit_cases d o with h | h <;> omega

theorem num_append (d : Ax) (s q : Path) : num d (s ++ q) = 2 ^ s.length * num d q + num d s := by
  induction s with
  | nil => simp [num]
  | cons o s ih =>
    simp only [List.cons_append, num, List.length_cons, pow_succ, ih]
    ring

theorem num_inj {p q : Path} (hl : p.length = q.length) (h : ∀ d, num d p = num d q) : p = q := by
  induction p generalizing q with
  | nil => simpa [eq_comm] using hl
  | cons o p ih =>
    cases q with
    | nil => simp at hl
    | cons o' q =>
      have hb : ∀ d, bit d o = bit d o' ∧ num d p = num d q := by
        intro d
        have := h d
        simp only [num] at this
        rcases bit_cases d o with h1 | h1 <;> rcases bit_cases d o' with h2 | h2 <;> omega
      rw [bit_inj fun d => (hb d).1, ih (by simpa using hl) fun d => (hb d).2]

theorem num_zero {d : Ax} {s : Path} (h : num d s = 0) : ∀ o ∈ s, bit d o = 0 := by
  induction s with
  | nil => simp
  | cons o s ih =>
    simp only [num] at h
    have := num_range d s
    have hb := bit_cases d o
    intro o' ho'
    rcases List.mem_cons.1 ho' with rfl | ho'
    · omega
    · exact ih (by omega) o' ho'

theorem num_ones {d : Ax} {s : Path} (h : num d s + 1 = 2 ^ s.length) : ∀ o ∈ s, bit d o = 1 := by
  induction s with
  | nil => simp
  | cons o s ih =>
    simp only [num, List.length_cons, pow_succ] at h
    have := num_range d s
    have hb := bit_cases d o
    intro o' ho'
    rcases List.mem_cons.1 ho' with rfl | ho'
    · omega
    · exact ih (by omega) o' ho'

/-! ### Nodes -/

section
variable {P : Type} {t : OTree P}

theorem nodeAt_tail {o : Vertex} {q : Path} {n : OTree P} (h : nodeAt t (o :: q) = some n) : ∃ c, nodeAt t q = some (.inner c) ∧ c o = n := by
  simp only [nodeAt] at h
  split at h
  · rename_i c hc
    exact ⟨c, hc, by simpa using h⟩
  · cases h

/-- An ancestor of a node is an inner node. -/
theorem gray_of_descendant {s q : Path} {n : OTree P} (hs : s ≠ []) (h : nodeAt t (s ++ q) = some n) : ∃ c, nodeAt t q = some (.inner c) := by
  induction s generalizing n with
  | nil => contradiction
  | cons o s ih =>
    obtain ⟨c, hc, -⟩ := nodeAt_tail h
    by_cases hs' : s = []
    · subst hs'; exact ⟨c, hc⟩
    · exact ih hs' hc

theorem gray_iff {q : Path} : gray t q = true ↔ ∃ c, nodeAt t q = some (.inner c) := by
  unfold gray
  constructor
  · intro h
    split at h
    · rename_i c hc; exact ⟨c, hc⟩
    · cases h
  · rintro ⟨c, hc⟩; rw [hc]

/-- What the neighbour search in direction `v` from `p` finds. -/
def Found (t : OTree P) (v : Ax → Int) (p : Path) : Option Path → Prop
  | none => ∃ d, num d p + v d < 0 ∨ 2 ^ p.length ≤ num d p + v d
  | some q => (∃ n, nodeAt t q = some n) ∧
      ∃ s : Path, s.length + q.length = p.length ∧ (∀ d, num d (s ++ q) = num d p + v d) ∧ (s = [] ∨ gray t q = false)

theorem found_here {q : Path} {n : OTree P} (h : nodeAt t q = some n) : Found t (fun _ => 0) q (some q) :=
  ⟨⟨n, h⟩, [], by simp, by simp, .inl rfl⟩

theorem found_root {a : Any} : Found t (dirVec a) [] none := by
  obtain ⟨d, hd⟩ := dirVec_ne a
  refine ⟨d, ?_⟩
  have := dirVec_cases a d
  simp only [num, List.length_nil, pow_zero]
  omega

theorem found_step {v : Ax → Int} (hv : ∀ d, v d = -1 ∨ v d = 0 ∨ v d = 1) {o r : Vertex} {q : Path} {Q : Option Path}
    (hr : ∀ d, bit d r = if v d = 0 then bit d o else 1 - bit d o) (h : Found t (carry v o) q Q) :
    Found t v (o :: q) (followSon t r Q) := by
  have ax : ∀ d, bit d o + v d = 2 * carry v o d + bit d r := by
    intro d
    rw [hr]
    unfold carry
    rcases hv d with h | h | h <;> rcases bit_cases d o with h' | h' <;> rw [h, h'] <;> decide
  cases Q with
  | none =>
    obtain ⟨d, hd⟩ := h
    refine ⟨d, ?_⟩
    have := ax d
    have hb := bit_cases d r
    simp only [num, List.length_cons, pow_succ]
    omega
  | some q' =>
    obtain ⟨⟨n, hn⟩, s, hl, hnum, hg⟩ := h
    unfold followSon
    by_cases hgray : gray t q' = true
    · simp only [hgray, if_true]
      have hs : s = [] := by rcases hg with h | h; exact h; rw [h] at hgray; cases hgray
      subst hs
      obtain ⟨c, hc⟩ := gray_iff.1 hgray
      refine ⟨⟨c r, by simp [nodeAt, hc]⟩, [], by simpa using hl, ?_, .inl rfl⟩
      intro d
      have := ax d
      have := hnum d
      simp only [List.nil_append, num] at this ⊢
      omega
    · simp only [hgray, if_false]
      refine ⟨⟨n, hn⟩, r :: s, by simp only [List.length_cons]; omega, ?_, .inr (by simpa using hgray)⟩
      intro d
      have := ax d
      have := hnum d
      simp only [List.cons_append, num] at this ⊢
      omega

theorem gteqFace_found (f : Face) {p : Path} {n : OTree P} (h : nodeAt t p = some n) : Found t (dirVec (.face f)) p (gteqFace t f p) := by
  induction p generalizing n with
  | nil => exact found_root
  | cons o q ih =>
    obtain ⟨c, hc, -⟩ := nodeAt_tail h
    apply found_step (dirVec_cases _) (reflect_bit _ _)
    have e : carry (dirVec (.face f)) o = fun d => if ADJ (.face f) o then dirVec (.face f) d else 0 := funext fun d => adj_face d
    rw [e]
    by_cases ha : ADJ (.face f) o = true
    · simp only [ha, if_true]; exact ih hc
    · simp only [ha]; exact found_here hc

theorem gteqEdge_found (f : Edge) {p : Path} {n : OTree P} (h : nodeAt t p = some n) : Found t (dirVec (.edge f)) p (gteqEdge t f p) := by
  induction p generalizing n with
  | nil => exact found_root
  | cons o q ih =>
    obtain ⟨c, hc, -⟩ := nodeAt_tail h
    apply found_step (dirVec_cases _) (reflect_bit _ _)
    rw [show carry (dirVec (.edge f)) o = _ from funext fun d => adj_edge d]
    by_cases ha : ADJ (.edge f) o = true
    · simp only [ha, if_true]; exact ih hc
    · simp only [ha]
      cases COMMON_FACE (.edge f) o with
      | some g => exact gteqFace_found g hc
      | none => exact found_here hc

theorem gteqVertex_found (f : Vertex) {p : Path} {n : OTree P} (h : nodeAt t p = some n) :
    Found t (dirVec (.vertex f)) p (gteqVertex t f p) := by
  induction p generalizing n with
  | nil => exact found_root
  | cons o q ih =>
    obtain ⟨c, hc, -⟩ := nodeAt_tail h
    apply found_step (dirVec_cases _) (reflect_bit _ _)
    rw [show carry (dirVec (.vertex f)) o = _ from funext fun d => adj_vertex d]
    by_cases ha : ADJ (.vertex f) o = true
    · simp only [ha, if_true]; exact ih hc
    · simp only [ha]
      cases COMMON_EDGE f o with
      | some g => exact gteqEdge_found g hc
      | none =>
        cases COMMON_FACE (.vertex f) o with
        | some g => exact gteqFace_found g hc
        | none => exact found_here hc

/-- The three searches. -/
def gteq (t : OTree P) (a : Any) (p : Path) : Option Path :=
  match a with
  | .face f => gteqFace t f p
  | .edge e => gteqEdge t e p
  | .vertex v => gteqVertex t v p

theorem gteq_found (a : Any) {p : Path} {n : OTree P} (h : nodeAt t p = some n) : Found t (dirVec a) p (gteq t a p) := by
  cases a with
  | face f => exact gteqFace_found f h
  | edge f => exact gteqEdge_found f h
  | vertex f => exact gteqVertex_found f h

theorem mem_neighborLeaves {p q : Path} : q ∈ neighborLeaves t p ↔ ∃ a : Any, q ∈ neighborLeavesIn t a (gteq t a p) := by
  unfold neighborLeaves
  rw [List.mem_dedup, List.mem_append, List.mem_append, List.mem_flatMap, List.mem_flatMap, List.mem_flatMap]
  constructor
  · rintro ((⟨f, -, h⟩ | ⟨f, -, h⟩) | ⟨f, -, h⟩)
    · exact ⟨.face f, h⟩
    · exact ⟨.edge f, h⟩
    · exact ⟨.vertex f, h⟩
  · rintro ⟨a, h⟩
    cases a with
    | face f => exact .inl (.inl ⟨f, by cases f <;> decide, h⟩)
    | edge f => exact .inl (.inr ⟨f, by cases f <;> decide, h⟩)
    | vertex f => exact .inr ⟨f, by cases f <;> decide, h⟩

/-- Leaves that are found are leaves below the node at which the search starts. -/
theorem leavesFromDirections_sound {dirs : List Vertex} {n : OTree P} {q x : Path} (hn : nodeAt t q = some n)
    (hx : x ∈ leavesFromDirections dirs n q) : ∃ s ps, x = s ++ q ∧ nodeAt t x = some (.leaf ps) := by
  induction n generalizing q with
  | leaf ps =>
    simp only [leavesFromDirections, List.mem_singleton] at hx
    subst hx
    exact ⟨[], ps, rfl, hn⟩
  | inner c ih =>
    simp only [leavesFromDirections, List.mem_flatMap] at hx
    obtain ⟨o, -, hx⟩ := hx
    obtain ⟨s, ps, h1, h2⟩ := ih o (q := o :: q) (by simp [nodeAt, hn]) hx
    exact ⟨s ++ [o], ps, by simp [h1], h2⟩

theorem leavesFromDirections_complete {dirs : List Vertex} {n : OTree P} {s q : Path} {ps : List P} (hn : nodeAt t q = some n)
    (hs : ∀ o ∈ s, o ∈ dirs) (hx : nodeAt t (s ++ q) = some (.leaf ps)) : s ++ q ∈ leavesFromDirections dirs n q := by
  induction n generalizing q s with
  | leaf ps' =>
    have : s = [] := by
      by_contra h
      obtain ⟨c, hc⟩ := gray_of_descendant h hx
      rw [hn] at hc; cases hc
    subst this
    simp [leavesFromDirections]
  | inner c ih =>
    rcases List.eq_nil_or_concat s with rfl | ⟨s', o, rfl⟩
    · rw [List.nil_append, hn] at hx; cases hx
    · simp only [leavesFromDirections, List.mem_flatMap]
      refine ⟨o, hs o (by simp), ?_⟩
      have e : s'.concat o ++ q = s' ++ (o :: q) := by simp
      rw [e] at hx ⊢
      exact ih o (by simp [nodeAt, hn]) (fun x hx => hs x (by simp [hx])) hx

theorem neighborLeaves_sound {p q : Path} (h : q ∈ neighborLeaves t p) : ∃ ps, nodeAt t q = some (.leaf ps) := by
  obtain ⟨a, h⟩ := mem_neighborLeaves.1 h
  unfold neighborLeavesIn at h
  split at h
  · cases h
  · split at h
    · cases h
    · rename_i n hn
      obtain ⟨-, ps, -, h2⟩ := leavesFromDirections_sound hn h
      exact ⟨ps, h2⟩

/-- A leaf is not its own neighbour. -/
theorem neighborLeaves_irrefl {p : Path} {n : OTree P} (hp : nodeAt t p = some n) : p ∉ neighborLeaves t p := by
  intro h
  obtain ⟨a, h⟩ := mem_neighborLeaves.1 h
  have hf := gteq_found a hp
  obtain ⟨d, hd⟩ := dirVec_ne a
  cases hq : gteq t a p with
  | none => rw [hq] at h; cases h
  | some q =>
    rw [hq] at h hf
    obtain ⟨⟨m, hm⟩, s, hl, hnum, hg⟩ := hf
    simp only [neighborLeavesIn, hm] at h
    obtain ⟨s2, ps, h1, h2⟩ := leavesFromDirections_sound hm h
    have hs : s = [] := by
      rcases hg with hg | hg
      · exact hg
      · by_cases h0 : s2 = []
        · subst h0
          have : s.length = 0 := by rw [h1] at hl; simp at hl; simpa using hl
          exact List.length_eq_zero_iff.1 this
        · obtain ⟨c, hc⟩ := gray_of_descendant h0 (h1 ▸ h2)
          rw [gray_iff.2 ⟨c, hc⟩] at hg; cases hg
    subst hs
    have : s2.length = 0 := by rw [h1] at hl; simp at hl; simpa using hl
    rw [List.length_eq_zero_iff.1 this, List.nil_append] at h1
    have := hnum d
    rw [← h1] at this
    simp only [List.nil_append] at this
    omega

/-- The closed boxes of two nodes have a common point. -/
def Touch (p q : Path) : Prop :=
  ∀ d, num d p * 2 ^ q.length ≤ (num d q + 1) * 2 ^ p.length ∧ num d q * 2 ^ p.length ≤ (num d p + 1) * 2 ^ q.length

/-- The neighbour search finds every leaf that touches the given one, whatever the sizes of the two. -/
theorem neighborLeaves_complete {A B : Path} {psA psB : List P} (hA : nodeAt t A = some (.leaf psA)) (hB : nodeAt t B = some (.leaf psB))
    (hAB : A ≠ B) (ht : Touch A B) : B ∈ neighborLeaves t A := by
  have noA : ∀ s, s ≠ [] → ∀ n, nodeAt t (s ++ A) ≠ some n := fun s hs n h => by
    obtain ⟨c, hc⟩ := gray_of_descendant hs h
    rw [hA] at hc; cases hc
  have noB : ∀ s, s ≠ [] → ∀ n, nodeAt t (s ++ B) ≠ some n := fun s hs n h => by
    obtain ⟨c, hc⟩ := gray_of_descendant hs h
    rw [hB] at hc; cases hc
  rw [mem_neighborLeaves]
  by_cases hlen : B.length ≤ A.length
  · -- `B` is at least as large as `A`
    obtain ⟨k, hk⟩ : ∃ k, A.length = B.length + k := ⟨A.length - B.length, by omega⟩
    have pk : (0 : Int) < 2 ^ k := by positivity
    have pB : (0 : Int) < 2 ^ B.length := by positivity
    have touch : ∀ d, num d A ≤ (num d B + 1) * 2 ^ k ∧ num d B * 2 ^ k ≤ num d A + 1 := by
      intro d
      obtain ⟨h1, h2⟩ := ht d
      rw [hk, pow_add] at h1 h2
      constructor
      · by_contra hc
        push Not at hc
        have := mul_lt_mul_of_pos_right hc pB
        nlinarith
      · by_contra hc
        push Not at hc
        have := mul_lt_mul_of_pos_right hc pB
        nlinarith
    let v : Ax → Int := fun d => if num d A < num d B * 2 ^ k then 1 else if (num d B + 1) * 2 ^ k ≤ num d A then -1 else 0
    have hv : ∀ d, v d = -1 ∨ v d = 0 ∨ v d = 1 := by
      intro d; simp only [v]; split
      · simp
      · split <;> simp
    have inB : ∀ d, num d B * 2 ^ k ≤ num d A + v d ∧ num d A + v d < (num d B + 1) * 2 ^ k := by
      intro d
      obtain ⟨h1, h2⟩ := touch d
      have h3 : (num d B + 1) * 2 ^ k = num d B * 2 ^ k + 2 ^ k := by ring
      simp only [v]
      split
      · omega
      · split <;> omega
    -- a path at the level of `A` whose numbers are in the range of `B` ends in `B`
    have below : ∀ X : Path, X.length = A.length → (∀ d, num d X = num d A + v d) → ∃ s, X = s ++ B := by
      intro X hX hnum
      refine ⟨X.take k, ?_⟩
      have hd : X.drop k = B := by
        apply num_inj
        · rw [List.length_drop]; omega
        · intro d
          have e : num d X = 2 ^ k * num d (X.drop k) + num d (X.take k) := by
            conv_lhs => rw [← List.take_append_drop k X]
            rw [num_append, List.length_take, min_eq_left (by omega)]
          have r := num_range d (X.take k)
          rw [List.length_take, min_eq_left (by omega)] at r
          have := inB d
          rw [← hnum, e] at this
          obtain ⟨h1, h2⟩ := this
          by_contra hne
          rcases lt_or_gt_of_ne hne with hlt | hgt
          · have : (num d (X.drop k) + 1) * 2 ^ k ≤ num d B * 2 ^ k := mul_le_mul_of_nonneg_right (by omega) pk.le
            nlinarith
          · have : (num d B + 1) * 2 ^ k ≤ num d (X.drop k) * 2 ^ k := mul_le_mul_of_nonneg_right (by omega) pk.le
            nlinarith
      rw [← hd, List.take_append_drop]
    have hne : ∃ d, v d ≠ 0 := by
      by_contra hc
      push Not at hc
      obtain ⟨s, hs⟩ := below A rfl (fun d => by rw [hc d]; simp)
      by_cases h0 : s = []
      · subst h0; exact hAB hs
      · exact noB s h0 _ (hs ▸ hA)
    obtain ⟨a, ha⟩ := exists_dir hv hne
    refine ⟨a, ?_⟩
    have hf := gteq_found a hA
    rw [show dirVec a = v from funext ha] at hf
    cases hq : gteq t a A with
    | none =>
      rw [hq] at hf
      obtain ⟨d, hd⟩ := hf
      exfalso
      have := inB d
      have r := num_range d B
      have h1 : 0 ≤ num d B * 2 ^ k := mul_nonneg r.1 pk.le
      have h2 : (num d B + 1) * 2 ^ k ≤ 2 ^ B.length * 2 ^ k := mul_le_mul_of_nonneg_right (by omega) pk.le
      rw [hk, pow_add] at hd
      omega
    | some q =>
      rw [hq] at hf
      obtain ⟨⟨m, hm⟩, s, hl, hnum, hg⟩ := hf
      obtain ⟨s', hs'⟩ := below (s ++ q) (by simpa using hl) hnum
      have hqB : q = B := by
        rcases List.append_eq_append_iff.1 hs' with ⟨a', h1, h2⟩ | ⟨c', h1, h2⟩
        · -- s' = s ++ a', q = a' ++ B
          by_cases h0 : a' = []
          · subst h0; simpa using h2
          · exact absurd (h2 ▸ hm) (noB a' h0 m)
        · -- s = s' ++ c', B = c' ++ q
          by_cases h0 : c' = []
          · subst h0; simpa using h2.symm
          · obtain ⟨c, hc⟩ := gray_of_descendant h0 (h2 ▸ hB)
            rcases hg with hg | hg
            · subst hg
              have := List.append_eq_nil_iff.1 h1.symm
              exact absurd this.2 h0
            · rw [gray_iff.2 ⟨c, hc⟩] at hg; cases hg
      subst hqB
      simp [neighborLeavesIn, hB, leavesFromDirections]
  · -- `B` is smaller than `A`
    obtain ⟨k, hk⟩ : ∃ k, B.length = A.length + k := ⟨B.length - A.length, by omega⟩
    have pk : (0 : Int) < 2 ^ k := by positivity
    have pA : (0 : Int) < 2 ^ A.length := by positivity
    have touch : ∀ d, num d A * 2 ^ k ≤ num d B + 1 ∧ num d B ≤ (num d A + 1) * 2 ^ k := by
      intro d
      obtain ⟨h1, h2⟩ := ht d
      rw [hk, pow_add] at h1 h2
      constructor
      · by_contra hc
        push Not at hc
        have := mul_lt_mul_of_pos_right hc pA
        nlinarith
      · by_contra hc
        push Not at hc
        have := mul_lt_mul_of_pos_right hc pA
        nlinarith
    set s := B.take k with hs
    set B' := B.drop k with hB'
    have hsB : s ++ B' = B := List.take_append_drop k B
    have hsl : s.length = k := by rw [hs, List.length_take]; omega
    have hBl : B'.length = A.length := by rw [hB', List.length_drop]; omega
    have e : ∀ d, num d B = 2 ^ k * num d B' + num d s := by
      intro d; rw [← hsB, num_append, hsl]
    have r : ∀ d, 0 ≤ num d s ∧ num d s < 2 ^ k := by intro d; have := num_range d s; rwa [hsl] at this
    let v : Ax → Int := fun d => num d B' - num d A
    have hv : ∀ d, v d = -1 ∨ v d = 0 ∨ v d = 1 := by
      intro d
      obtain ⟨h1, h2⟩ := touch d
      rw [e] at h1 h2
      have := r d
      have u1 : num d B' ≤ num d A + 1 := by
        by_contra hc
        push Not at hc
        have : (num d A + 1 + 1) * 2 ^ k ≤ num d B' * 2 ^ k := mul_le_mul_of_nonneg_right (by omega) pk.le
        nlinarith
      have u2 : num d A ≤ num d B' + 1 := by
        by_contra hc
        push Not at hc
        have : (num d B' + 1 + 1) * 2 ^ k ≤ num d A * 2 ^ k := mul_le_mul_of_nonneg_right (by omega) pk.le
        nlinarith
      simp only [v]
      omega
    have hs0 : s ≠ [] := by intro h; rw [h] at hsl; simp at hsl; omega
    obtain ⟨c, hc⟩ := gray_of_descendant hs0 (hsB.symm ▸ hB)
    have hne : ∃ d, v d ≠ 0 := by
      by_contra hcon
      push Not at hcon
      have : B' = A := num_inj hBl fun d => by have := hcon d; simp only [v] at this; omega
      exact noA s hs0 _ (this ▸ (hsB.symm ▸ hB))
    obtain ⟨a, ha⟩ := exists_dir hv hne
    refine ⟨a, ?_⟩
    have hf := gteq_found a hA
    rw [show dirVec a = v from funext ha] at hf
    have hv' : ∀ d, num d A + v d = num d B' := by intro d; simp only [v]; omega
    have hq : gteq t a A = some B' := by
      cases hq : gteq t a A with
      | none =>
        rw [hq] at hf
        obtain ⟨d, hd⟩ := hf
        exfalso
        rw [hv'] at hd
        have := num_range d B'
        rw [hBl] at this
        omega
      | some q =>
        rw [hq] at hf
        obtain ⟨-, s1, hl, hnum, hg⟩ := hf
        have hx : s1 ++ q = B' := num_inj (by rw [List.length_append, hl, hBl]) fun d => by rw [hnum, hv']
        by_cases h0 : s1 = []
        · subst h0; rw [← hx]; rfl
        · obtain ⟨c', hc'⟩ := gray_of_descendant h0 (hx ▸ hc)
          rcases hg with hg | hg
          · exact absurd hg h0
          · rw [gray_iff.2 ⟨c', hc'⟩] at hg; cases hg
    rw [hq]
    simp only [neighborLeavesIn, hc]
    rw [← hsB]
    refine leavesFromDirections_complete (t := t) hc ?_ (hsB.symm ▸ hB)
    intro o ho
    apply mem_allowed
    intro d
    rw [ha]
    obtain ⟨h1, h2⟩ := touch d
    rw [e] at h1 h2
    have r' := r d
    constructor
    · intro h
      have hb : num d B' = num d A + 1 := by simp only [v] at h; omega
      rw [hb] at h2
      refine num_zero (s := s) ?_ o ho
      nlinarith
    · intro h
      have hb : num d A = num d B' + 1 := by simp only [v] at h; omega
      rw [hb] at h1
      refine num_ones (s := s) ?_ o ho
      rw [hsl]
      nlinarith

end
end Verif.Octree
