import Mathlib.Tactic.IntervalCases
import Mathlib.Data.List.Basic
import Mathlib.Data.List.Perm.Basic
import Mathlib.Tactic.Ring
import Verif.Model.OctreeLogger
import Verif.Spec.OctreeLogger
/-!
# C143: files that show octrees and domains
-/
namespace Verif

open Spec.OctreeLogger

variable {K α : Type}

namespace OctreeLog

theorem points_length (boxes : List (V3 K × V3 K)) : (boxes.flatMap octreePoints).length = 8 * boxes.length := by
  induction boxes with
  | nil => rfl
  | cons b bs ih => simp [octreePoints, ih]; ring

theorem points_get (boxes : List (V3 K × V3 K)) {i : Nat} (hi : i < boxes.length) {j : Nat} (hj : j < 8) :
    (boxes.flatMap octreePoints)[8 * i + j]? = (octreePoints boxes[i])[j]? := by
  induction boxes generalizing i with
  | nil => simp at hi
  | cons b bs ih =>
    have h8 : (octreePoints b).length = 8 := rfl
    cases i with
    | zero => rw [List.flatMap_cons, List.getElem?_append_left (by omega)]; simp
    | succ i =>
      rw [List.flatMap_cons, List.getElem?_append_right (by omega), h8]
      have : 8 * (i + 1) + j - 8 = 8 * i + j := by omega
      rw [this, ih (by simpa using hi)]
      simp

theorem hex_get (lo hi : V3 K) {j : Nat} (hj : j < 8) : (octreePoints (lo, hi))[j]? = some (hexahedronCorner lo hi j) := by
  interval_cases j <;> rfl

theorem mapM_some {β γ : Type} {f : β → Option γ} {g : β → γ} {l : List β} (h : ∀ a ∈ l, f a = some (g a)) : l.mapM f = some (l.map g) := by
  induction l with
  | nil => rfl
  | cons a l ih =>
    rw [List.mapM_cons, h a (by simp), ih fun x hx => h x (by simp [hx])]
    rfl

theorem particle_last (l : List α) : particleTokens false l = (l.map JTok.item).intersperse .comma := by
  induction l with
  | nil => rfl
  | cons p ps ih =>
    cases ps with
    | nil => rfl
    | cons q qs => rw [particleTokens, ih]; simp

theorem particle_more (l : List α) : particleTokens true l = l.flatMap fun p => [.item p, .comma] := by
  induction l with
  | nil => rfl
  | cons p ps ih => rw [particleTokens, ih]; simp

theorem intersperse_append (l m : List α) (hm : m ≠ []) :
    ((l ++ m).map JTok.item).intersperse JTok.comma = (l.flatMap fun p => [.item p, .comma]) ++ (m.map JTok.item).intersperse .comma := by
  induction l with
  | nil => simp
  | cons p ps ih =>
    rw [List.cons_append, List.map_cons, List.flatMap_cons, List.append_assoc, ← ih]
    have : ps ++ m ≠ [] := by simp [hm]
    cases h : ps ++ m with
    | nil => exact absurd h this
    | cons q qs => simp

/-- All leaves but the last put a comma behind each particle. -/
theorem leaf_tokens (leaves : List (List α)) (last : List α) :
    leafTokens (leaves ++ [last]) = (leaves.flatten.flatMap fun p => [.item p, .comma]) ++ (last.map JTok.item).intersperse .comma := by
  induction leaves with
  | nil => simp [leafTokens, particle_last]
  | cons l ls ih =>
    have : (!(ls ++ [last]).isEmpty) = true := by simp
    rw [List.cons_append, leafTokens, ih, this, particle_more, List.flatten_cons, List.flatMap_append, List.append_assoc]

/-- In a list no comma is the last token in front of the closing bracket. -/
theorem intersperse_last (items : List α) (t : List (JTok α)) : (items.map JTok.item).intersperse .comma ≠ t ++ [.comma] := by
  induction items generalizing t with
  | nil => simp
  | cons a as ih =>
    cases as with
    | nil =>
      intro h
      have := congrArg List.getLast? h
      simp at this
    | cons b bs =>
      intro h
      simp only [List.map_cons, List.intersperse_cons_cons] at h
      cases t with
      | nil => simp at h
      | cons x t =>
        cases t with
        | nil =>
          simp only [List.cons_append, List.nil_append, List.cons.injEq] at h
          have := h.2.2
          cases bs <;> simp at this
        | cons y t =>
          simp only [List.cons_append, List.cons.injEq] at h
          exact ih t (by simpa using h.2.2)

theorem groups_false (groups : List (List α)) :
    groupsTokens false groups = groups.flatten.flatMap fun a => [.comma, .item a] := by
  have hg : ∀ (g : List α), groupTokens false g = (g.flatMap fun a => [.comma, .item a], false) := by
    intro g
    induction g with
    | nil => rfl
    | cons a as ih => simp [groupTokens, ih]
  induction groups with
  | nil => rfl
  | cons g gs ih => rw [groupsTokens, hg]; simp [ih]

theorem intersperse_cons_flat (a : α) (l : List α) :
    ((a :: l).map JTok.item).intersperse JTok.comma = .item a :: l.flatMap fun b => [.comma, .item b] := by
  induction l generalizing a with
  | nil => rfl
  | cons b l ih => rw [List.map_cons, List.map_cons, List.intersperse_cons_cons, ← List.map_cons, ih b]; simp

theorem groups_true (groups : List (List α)) : groupsTokens true groups = (groups.flatten.map JTok.item).intersperse .comma := by
  induction groups with
  | nil => rfl
  | cons g gs ih =>
    cases g with
    | nil => rw [groupsTokens]; simpa [groupTokens] using ih
    | cons a as =>
      have hg : groupTokens false as = (as.flatMap fun a => [.comma, .item a], false) := by
        clear ih
        induction as with
        | nil => rfl
        | cons a as ih => simp [groupTokens, ih]
      rw [groupsTokens, groupTokens, hg, List.flatten_cons, List.cons_append, intersperse_cons_flat]
      simp [groups_false]

theorem objects_go (l : List α) (k n : Nat) (h : k + l.length = n) :
    ((l.zipIdx k).flatMap fun x => [JTok.item x.1] ++ (if x.2 < n - 1 then [.comma] else [])) = (l.map JTok.item).intersperse .comma := by
  induction l generalizing k with
  | nil => rfl
  | cons a l ih =>
    rw [List.zipIdx_cons, List.flatMap_cons, ih (k + 1) (by simp at h; omega)]
    cases l with
    | nil =>
      simp at h
      rw [if_neg (by simp; omega)]; rfl
    | cons b l =>
      simp at h
      rw [if_pos (by simp; omega)]
      simp

end OctreeLog

open OctreeLog

/-- The vtk file of an octree declares the right sizes, and cell `i` consists of the eight corners of leaf `i` in the order of its type, a hexahedron. -/
theorem C143_tree (boxes : List (V3 K × V3 K)) :
    Consistent (logTree boxes) ∧ (logTree boxes).cells.length = boxes.length ∧
    ∀ (i : Nat) (hi : i < boxes.length), (logTree boxes).types[i]? = some 12 ∧
      cellPoints (logTree boxes) i = some ((List.range 8).map (hexahedronCorner boxes[i].1 boxes[i].2)) := by
  refine ⟨⟨?_, by simp [logTree], by simp [logTree], by simp [logTree], ?_, ?_⟩, by simp [logTree], fun i hi => ⟨?_, ?_⟩⟩
  · exact (points_length boxes).symm
  · simp [logTree, Function.comp_def]; omega
  · intro c hc
    simp only [logTree, List.mem_map, List.mem_range] at hc
    obtain ⟨i, hi, rfl⟩ := hc
    refine ⟨by simp, fun j hj => ?_⟩
    simp only [List.mem_map, List.mem_range] at hj
    obtain ⟨k, hk, rfl⟩ := hj
    simp only [logTree, points_length]
    omega
  · simp [logTree, hi]
  · unfold cellPoints
    have hc : (logTree boxes).cells[i]? = some (8, (List.range 8).map fun j => 8 * i + j) := by
      simp [logTree, hi]
    rw [hc]
    simp only [Option.bind_some]
    rw [List.mapM_map]
    refine mapM_some fun j hj => ?_
    have hj := List.mem_range.1 hj
    simp only [Function.comp, logTree]
    rw [points_get boxes hi hj]
    exact hex_get _ _ hj

/-- The file of a domain declares the right sizes, and its points are the eight corners of the domain, each once. Missing: their order. -/
theorem C143_domain_partial (lo hi : V3 K) : Consistent (domainFile lo hi) ∧
    ∃ pts, cellPoints (domainFile lo hi) 0 = some pts ∧ pts.Perm ((List.range 8).map (voxelCorner lo hi)) := by
  refine ⟨⟨rfl, rfl, rfl, rfl, rfl, ?_⟩, _, rfl, ?_⟩
  · intro c hc
    simp only [domainFile, List.mem_singleton] at hc
    subst hc
    refine ⟨rfl, ?_⟩
    intro i hi
    simp only [domainFile, List.length_cons, List.length_nil]
    simp at hi
    omega
  · have e : (List.range 8).map (voxelCorner lo hi) = [⟨lo.x, lo.y, lo.z⟩, ⟨hi.x, lo.y, lo.z⟩, ⟨lo.x, hi.y, lo.z⟩, ⟨hi.x, hi.y, lo.z⟩,
        ⟨lo.x, lo.y, hi.z⟩, ⟨hi.x, lo.y, hi.z⟩, ⟨lo.x, hi.y, hi.z⟩, ⟨hi.x, hi.y, hi.z⟩] := rfl
    rw [e]
    refine List.Perm.cons _ ?_
    refine (List.Perm.cons _ (List.Perm.cons _ (List.Perm.cons _ (List.Perm.refl _)))).trans (?_ : List.Perm _ _)
    exact perm_domain _ _ _ _ _ _ _
where
  perm_domain {β : Type} (a b c d e f g : β) : [a, b, c, d, e, f, g].Perm [d, b, f, a, e, c, g] := by
    classical
    rw [List.perm_iff_count]
    intro x
    simp only [List.count_cons, List.count_nil]
    omega

/-- Violated: the cell has the type of voxels, whose second point is the neighbour of the first one in direction x; in the file it is the one in direction z. -/
theorem C143_violated_voxel {lo hi : V3 K} (h : lo.x ≠ hi.x) :
    (domainFile lo hi).types = [11] ∧ cellPoints (domainFile lo hi) 0 ≠ some ((List.range 8).map (voxelCorner lo hi)) := by
  refine ⟨rfl, fun hc => ?_⟩
  have h2 := congrArg (fun o => (o.getD [])[1]?) hc
  have h3 : some (⟨lo.x, lo.y, hi.z⟩ : V3 K) = some ⟨hi.x, lo.y, lo.z⟩ := h2
  simp only [Option.some.injEq, V3.mk.injEq] at h3
  exact h h3.1

/-- The list of particles is a well-formed JSON list exactly if the last leaf has particles or no leaf has any; then it has all particles in the order of the leaves. -/
theorem C143_particles_partial (leaves : List (List α)) :
    ((leaves.flatten = [] ∨ leaves.getLast? ≠ some []) → particlesToJSON leaves = listOf leaves.flatten) ∧
    ((∃ items, particlesToJSON leaves = listOf items) → leaves.flatten = [] ∨ leaves.getLast? ≠ some []) := by
  rcases List.eq_nil_or_concat leaves with rfl | ⟨ls, last, rfl⟩
  · exact ⟨fun _ => rfl, fun _ => .inl rfl⟩
  · rw [List.concat_eq_append]
    constructor
    · intro h
      rw [particlesToJSON, leaf_tokens, listOf]
      have hlast : last ≠ [] ∨ (ls ++ [last]).flatten = [] := by
        rcases h with h | h
        · exact .inr h
        · exact .inl (by simpa using h)
      rcases hlast with hl | hl
      · rw [List.flatten_append, List.flatten_singleton, intersperse_append _ _ hl]
      · have h1 : ls.flatten = [] ∧ last = [] := by
          rw [List.flatten_append, List.flatten_singleton, List.append_eq_nil_iff] at hl
          exact hl
        rw [hl, h1.1, h1.2]; rfl
    · rintro ⟨items, hi⟩
      by_cases hl : last = []
      · subst hl
        left
        by_contra hne
        have hf : ls.flatten ≠ [] := by simpa using hne
        rw [particlesToJSON, leaf_tokens, listOf] at hi
        have h1 := List.append_cancel_right hi
        have h2 := List.append_cancel_left h1
        rcases List.eq_nil_or_concat ls.flatten with h3 | ⟨as, a, h3⟩
        · exact hf h3
        · rw [h3, List.concat_eq_append] at h2
          simp only [List.flatMap_append, List.flatMap_cons, List.flatMap_nil, List.map_nil, List.intersperse_nil, List.append_nil] at h2
          refine intersperse_last items ((as.flatMap fun p => [.item p, .comma]) ++ [.item a]) ?_
          rw [← h2]; simp
      · exact .inr (by simpa using hl)

/-- Violated: a particle in the first leaf and an empty last leaf: a comma in front of the closing bracket. -/
theorem C143_violated_comma (p : α) : particlesToJSON [[p], []] = [.open, .item p, .comma, .close] ∧ ∀ items, particlesToJSON [[p], []] ≠ listOf items := by
  refine ⟨rfl, fun items h => ?_⟩
  have := (C143_particles_partial [[p], []]).2 ⟨items, h⟩
  simp at this

/-- The lists of neighbours and the list of leaves are always well-formed and complete, also if directions have no neighbours. -/
theorem C143_leaves (groups : List (List α)) (leaves : List α) : neighborTokens groups = listOf groups.flatten ∧ objectTokens leaves = listOf leaves := by
  refine ⟨?_, ?_⟩
  · rw [neighborTokens, groups_true, listOf]
  · rw [objectTokens, objects_go leaves 0 leaves.length (by simp), listOf]

/-- Two leaves, the last with a particle. -/
example : particlesToJSON [[1, 2], [], [3]] = [.open, .item 1, .comma, .item 2, .comma, .item 3, .close] := by decide

example : neighborTokens [[], [1], [], [2, 3]] = [.open, .item 1, .comma, .item 2, .comma, .item 3, .close] := by decide

end Verif
