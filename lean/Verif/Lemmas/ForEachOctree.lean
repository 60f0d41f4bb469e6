import Verif.Lemmas.ForEach
import Verif.Lemmas.OctreeGeometry
/-! `reduce` of octrees. -/
namespace Verif
open Spec Octree

theorem bit_le_one (d : Ax) (o : Vertex) : Octree.bit d o = 0 ∨ Octree.bit d o = 1 := by cases d <;> cases o <;> decide

/-- A position in the box of a child is in the box of its parent. -/
theorem in_parent_box {b : Box} {o : Vertex} {p : V3 Rat} (h : InBox p (childBox b o).lo (childBox b o).hi) : InBox p b.lo b.hi := by
  have key : ∀ d, comp (childBox b o).lo d ≤ comp p d → comp p d < comp (childBox b o).hi d → comp b.lo d ≤ comp p d ∧ comp p d < comp b.hi d := by
    intro d h1 h2
    rw [childBox_hi] at h2
    rw [childBox_lo] at h1 h2
    have hw : comp b.hi d = comp b.lo d + b.width d := by unfold Box.width; ring
    rcases bit_le_one d o with e | e <;> rw [e] at h1 h2 <;> push_cast at h1 h2 <;> constructor <;> linarith
  obtain ⟨⟨x1, x2⟩, ⟨y1, y2⟩, z1, z2⟩ := h
  exact ⟨key .x x1 x2, key .y y1 y2, key .z z1 z2⟩

theorem sortedWithin_zero (t : OTree Particle) : ∀ (b : Box), SortedWithin 0 t b → ∀ p ∈ collectAll t, InBox p.pos b.lo b.hi := by
  induction t with
  | leaf ps =>
    intro b h p hp
    obtain ⟨old, ho, hx, hy, hz⟩ := h p hp
    have e : p.pos = old := by
      have e1 := abs_nonpos_iff.1 hx
      have e2 := abs_nonpos_iff.1 hy
      have e3 := abs_nonpos_iff.1 hz
      cases hpp : p.pos; cases old
      simp only [hpp, V3.mk.injEq] at e1 e2 e3 ⊢
      exact ⟨by linarith, by linarith, by linarith⟩
    rw [e]; exact ho
  | inner c ih =>
    intro b h p hp
    simp only [collectAll, List.mem_flatMap] at hp
    obtain ⟨o, -, hp⟩ := hp
    exact in_parent_box (ih o _ (h o) p hp)

theorem foldl_bind_ok {α A : Type} {P : Type} (g : A → P → A) (step : α → A → Outcome A) (h : α → List P) (L : List α)
    (hs : ∀ o ∈ L, ∀ a, step o a = .ok ((h o).foldl g a)) (a : A) :
    L.foldl (fun (acc : Outcome A) o => acc.bind fun a' => step o a') (Outcome.ok a) = .ok ((L.flatMap h).foldl g a) := by
  induction L generalizing a with
  | nil => rfl
  | cons o L ih =>
    rw [List.foldl_cons, List.flatMap_cons, List.foldl_append]
    show L.foldl _ (step o a) = _
    rw [hs o (by simp), ih (fun q hq => hs q (by simp [hq]))]

theorem otReduceNode_whole {A : Type} (g : A → Particle → A) (t : OTree Particle) : ∀ (b : Box) (a : A),
    otReduceNode none g t b a = .ok ((collectAll t).foldl g a) := by
  induction t with
  | leaf ps =>
    intro b a
    rw [otReduceNode]
    rw [cellReduce_ok (sel := fun _ => true) g ps (fun p _ => rfl) a]
    simp [collectAll]
  | inner c ih =>
    intro b a
    rw [otReduceNode, collectAll]
    exact foldl_bind_ok g (fun o a' => if true = true then otReduceNode none g (c o) (childBox b o) a' else .ok a') _ vertices
      (fun o _ a => by rw [if_pos rfl]; exact ih o _ a) a

theorem encloses_of_inBox {a b : Box} {p : V3 Rat} (h1 : InBox p a.lo a.hi) (h2 : InBox p b.lo b.hi) : enclosesVolume a b = true := by
  obtain ⟨⟨x1, x2⟩, ⟨y1, y2⟩, z1, z2⟩ := h1
  obtain ⟨⟨u1, u2⟩, ⟨v1, v2⟩, w1, w2⟩ := h2
  have key : ∀ {l h l' h' x : Rat}, l ≤ x → x < h → l' ≤ x → x < h' → 0 < min h h' - max l l' := by
    intro l h l' h' x e1 e2 e3 e4
    have := max_le e1 e3
    have := lt_min e2 e4
    linarith
  unfold enclosesVolume
  rw [decide_eq_true_iff]
  exact ⟨key x1 x2 u1 u2, key y1 y2 v1 v2, key z1 z2 w1 w2⟩

theorem named_ownedOrHalo : NamedBehavior ibOwnedOrHalo := by decide

theorem otReduceNode_region {A : Type} (g : A → Particle → A) (lo hi : V3 Rat) (t : OTree Particle) : ∀ (b : Box) (a : A), SortedWithin 0 t b →
    otReduceNode (some (lo, hi)) g t b a =
      .ok (((collectAll t).filter fun p => wanted ibOwnedOrHalo p.own && decide (InBox p.pos lo hi)).foldl g a) := by
  induction t with
  | leaf ps =>
    intro b a _
    rw [otReduceNode]
    exact cellReduce_ok g ps (fun p _ => by
      simp only [cellSelects, Option.map_some, contains_named named_ownedOrHalo, inBoxB_iff]) a
  | inner c ih =>
    intro b a h
    rw [otReduceNode, collectAll, List.filter_flatMap]
    refine foldl_bind_ok g (fun o a' => if enclosesVolume (childBox b o) ⟨lo, hi⟩ = true then
      otReduceNode (some (lo, hi)) g (c o) (childBox b o) a' else .ok a') _ vertices (fun o _ a => ?_) a
    split
    · exact ih o _ a (h o)
    · rename_i hv
      have : (collectAll (c o)).filter (fun p => wanted ibOwnedOrHalo p.own && decide (InBox p.pos lo hi)) = [] := by
        rw [List.filter_eq_nil_iff]
        intro p hp hsel
        rw [Bool.and_eq_true, decide_eq_true_iff] at hsel
        exact hv (encloses_of_inBox (sortedWithin_zero _ _ (h o) p hp) hsel.2)
      rw [this]; rfl

end Verif
