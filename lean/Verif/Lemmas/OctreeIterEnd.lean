import Verif.Lemmas.OctreeIterSim
import Verif.Lemmas.OctreeStorage
import Verif.Lemmas.IterDelete
import Verif.Lemmas.LCIter
import Verif.Lemmas.LCRegion
import Verif.Spec.OctreeIteration
/-! Consequences of the simulation for whole loops. -/
namespace Verif.Octree
open Spec

section
variable {P : Type} {cfg : OTIterCfg P} {owned halo : OTree P}

theorem loop_more (body : List P → P → Option P) (m : Nat) : ∀ (seen : List P) (s : OTIter P) (r : List (Visit P) × OTIter P) (k : Nat),
    OTIter.loop cfg body m seen s = .ok r → OTIter.loop cfg body (m + k) seen s = .ok r := by
  induction m with
  | zero => intro seen s r k h; rw [OTIter.loop] at h; cases h
  | succ m ih =>
    intro seen s r k h
    rw [Nat.add_right_comm, OTIter.loop]
    rw [OTIter.loop] at h
    cases hc : s.cur with
    | none => rw [hc] at h; exact h
    | some p =>
      rw [hc] at h
      simp only at h ⊢
      cases h1 : s.afterBody cfg (body seen p) with
      | ok s1 =>
        rw [h1] at h
        simp only [Outcome.bind] at h ⊢
        cases h2 : s1.next cfg with
        | ok s2 =>
          rw [h2] at h
          simp only at h ⊢
          cases h3 : OTIter.loop cfg body m (seen ++ [p]) s2 with
          | ok q =>
            rw [h3] at h
            rw [ih _ _ _ k h3]
            exact h
          | _ => rw [h3] at h; cases h
        | _ => rw [h2] at h; cases h
      | _ => rw [h1] at h; cases h

/-- A loop over the octree ends as the loop over the cells does. -/
theorem loop_ends {I : Box → Prop} (h : RelOk cfg I) (hS : 0 < cfg.stride) (htS : cfg.thread < cfg.stride) (hs : Shallow cfg owned halo)
    (vecs : List (List P)) (body : List P → P → Option P) {m : Nat} {vs : List (Visit P)} {t : IterState P}
    (hl : iterLoop (flatOf cfg owned halo) body m []
      (iterBegin (flatOf cfg owned halo) (flatCells cfg.stride (allLeaves cfg owned halo)) vecs) = some (vs, t)) :
    ∃ vs' owned' halo', OTLoopEnds cfg body owned halo vecs vs' owned' halo' t.vecs ∧ seenBy vs' = seenBy vs ∧
      t.cells = flatCells cfg.stride (allLeaves cfg owned' halo') := by
  obtain ⟨s, h1, h2⟩ := begin_sim h hS htS hs vecs
  obtain ⟨vs', t', h3, h4, h5⟩ := loop_sim h hS htS body m [] s _ vs t h2 hl
  refine ⟨vs', t'.owned, t'.halo, ⟨m, fun k hk => ⟨s, t', h1, ?_, rfl, rfl, h5.vecs.symm⟩⟩, h4, h5.cells⟩
  have := loop_more body m [] s _ (k - m) h3
  rwa [show m + (k - m) = k by omega] at this

theorem flatten_leaves (cfg : OTIterCfg P) (owned halo : OTree P) (S : Nat) :
    (flatCells S (allLeaves cfg owned halo)).flatten = collectAll owned ++ collectAll halo := by
  rw [flatCells_flatten, allLeaves, List.flatMap_append]
  have key : ∀ (t : OTree P) b ds, (under t b ds).flatMap (fun e => e.2.2) = collectAll t := by
    intro t b ds
    rw [collectAll_eq t [], List.flatMap_def, under_contents t b ds [], ← List.flatMap_def]
  rw [key, key]

theorem under_depth (t : OTree P) (b : Box) (ds : List Nat) (n : Nat) (h : DepthAtMost n t) : ∀ e ∈ under t b ds, e.1.length ≤ n + ds.length := by
  induction t generalizing b ds n with
  | leaf ps =>
    intro e he
    rw [under, List.mem_singleton] at he
    subst he
    simp
  | inner c ih =>
    cases n with
    | zero => exact absurd h (by simp [DepthAtMost])
    | succ n =>
      intro e he
      rw [under, List.mem_flatMap] at he
      obtain ⟨i, -, hi⟩ := he
      have := ih _ _ _ n (h (octant i)) e hi
      rw [List.length_cons] at this
      omega

theorem shallow_of_depth (h1 : DepthAtMost 18 owned) (h2 : DepthAtMost 18 halo) : Shallow cfg owned halo := by
  intro e he
  rw [allLeaves, List.mem_append] at he
  rcases he with he | he
  · exact under_depth _ _ _ _ h1 e he
  · exact under_depth _ _ _ _ h2 e he

theorem childBox_octant (b : Box) {i : Nat} (hi : i < 8) : childBox b (octant i) = childBoxNo b i := by
  unfold childBox
  congr 1
  interval_cases i <;> decide

theorem under_sorted (m : Rat) (t : OTree Particle) (b : Box) (ds : List Nat) (h : SortedWithin m t b) :
    ∀ e ∈ under t b ds, ∀ p ∈ e.2.2, ∃ old : V3 Rat, InBox old e.2.1.lo e.2.1.hi ∧ |p.pos.x - old.x| ≤ m ∧ |p.pos.y - old.y| ≤ m ∧
      |p.pos.z - old.z| ≤ m := by
  induction t generalizing b ds with
  | leaf ps =>
    intro e he
    rw [under, List.mem_singleton] at he
    subst he
    exact h
  | inner c ih =>
    intro e he
    rw [under, List.mem_flatMap] at he
    obtain ⟨i, hi, hx⟩ := he
    have h' := h (octant i)
    rw [childBox_octant b (List.mem_range.1 hi)] at h'
    exact ih _ _ _ h' e hx

/-- Iterators that are not confined to a region. -/
theorem relOk_all (hr : cfg.region = none) : RelOk cfg (fun _ => True) := by
  refine ⟨trivial, trivial, fun _ _ _ _ => trivial, ?_, ?_⟩
  · intro b _ c hc
    simp only [OTIterCfg.relevant, hr, decide_eq_true_eq] at hc ⊢
    rw [collectAll] at hc
    by_contra hn
    push Not at hn
    have : vertices.flatMap (fun o => collectAll (c o)) = [] := by
      rw [List.flatMap_eq_nil_iff]
      intro o ho
      have : ∃ i, i < 8 ∧ octant i = o := by cases o <;> decide
      obtain ⟨i, hi, rfl⟩ := this
      have := hn i hi
      rw [← List.length_eq_zero_iff]; omega
    rw [this] at hc
    simp at hc
  · intro b _ c i hi hc
    simp only [OTIterCfg.relevant, hr, decide_eq_true_eq] at hc ⊢
    rw [collectAll, List.length_flatMap]
    have hm : octant i ∈ vertices := by interval_cases i <;> decide
    have := List.single_le_sum (l := vertices.map fun o => (collectAll (c o)).length) (by simp) _ (List.mem_map_of_mem hm)
    omega

private theorem half_down {lo hi a b : Rat} (h1 : hi > a) (h2 : b > lo) (hab : a < b) :
    ((lo + hi) * (1 / 2) > a ∧ b > lo) ∨ (hi > a ∧ b > (lo + hi) * (1 / 2)) := by
  by_cases h : (lo + hi) * (1 / 2) > a
  · exact Or.inl ⟨h, h2⟩
  · exact Or.inr ⟨h1, by linarith⟩

/-- Iterators confined to a region that is not empty, or outside of the box. -/
theorem relOk_region {r : V3 Rat × V3 Rat} (hr : cfg.region = some r) (c : OTCfg) (hil : 0 ≤ c.il) (hbox : cfg.box = c.box)
    (hhalo : cfg.haloBox = c.haloBox)
    (hpos : c.box.lo.x ≤ c.box.hi.x ∧ c.box.lo.y ≤ c.box.hi.y ∧ c.box.lo.z ≤ c.box.hi.z)
    (hx : r.1.x < r.2.x ∨ c.haloBox.hi.x ≤ r.1.x ∨ r.2.x ≤ c.haloBox.lo.x)
    (hy : r.1.y < r.2.y ∨ c.haloBox.hi.y ≤ r.1.y ∨ r.2.y ≤ c.haloBox.lo.y)
    (hz : r.1.z < r.2.z ∨ c.haloBox.hi.z ≤ r.1.z ∨ r.2.z ≤ c.haloBox.lo.z) :
    RelOk cfg (fun b => (b.lo.x ≤ b.hi.x ∧ b.lo.y ≤ b.hi.y ∧ b.lo.z ≤ b.hi.z) ∧
      (c.haloBox.lo.x ≤ b.lo.x ∧ c.haloBox.lo.y ≤ b.lo.y ∧ c.haloBox.lo.z ≤ b.lo.z) ∧
      (b.hi.x ≤ c.haloBox.hi.x ∧ b.hi.y ≤ c.haloBox.hi.y ∧ b.hi.z ≤ c.haloBox.hi.z)) := by
  obtain ⟨p1, p2, p3⟩ := hpos
  refine ⟨?_, ?_, ?_, ?_, ?_⟩
  · rw [hbox]
    simp only [OTCfg.haloBox, Box.grow]
    refine ⟨⟨p1, p2, p3⟩, ⟨?_, ?_, ?_⟩, ⟨?_, ?_, ?_⟩⟩ <;> linarith
  · rw [hhalo]
    simp only [OTCfg.haloBox, Box.grow]
    refine ⟨⟨?_, ?_, ?_⟩, ⟨le_refl _, le_refl _, le_refl _⟩, ⟨le_refl _, le_refl _, le_refl _⟩⟩ <;> linarith
  · rintro b ⟨⟨a1, a2, a3⟩, ⟨b1, b2, b3⟩, ⟨c1, c2, c3⟩⟩ i hi
    interval_cases i <;> simp [childBoxNo] <;> refine ⟨⟨?_, ?_, ?_⟩, ⟨?_, ?_, ?_⟩, ⟨?_, ?_, ?_⟩⟩ <;> linarith
  · rintro b ⟨⟨a1, a2, a3⟩, ⟨b1, b2, b3⟩, ⟨c1, c2, c3⟩⟩ t ht
    simp only [OTIterCfg.relevant, hr, boxesOverlap, Bool.and_eq_true, decide_eq_true_eq] at ht ⊢
    obtain ⟨⟨⟨x1, x2⟩, y1, y2⟩, z1, z2⟩ := ht
    have hx' : r.1.x < r.2.x := by rcases hx with h | h | h <;> linarith
    have hy' : r.1.y < r.2.y := by rcases hy with h | h | h <;> linarith
    have hz' : r.1.z < r.2.z := by rcases hz with h | h | h <;> linarith
    have kx := half_down x1 x2 hx'
    have ky := half_down y1 y2 hy'
    have kz := half_down z1 z2 hz'
    rcases kx with kx | kx <;> rcases ky with ky | ky <;> rcases kz with kz | kz
    · exact ⟨0, by decide, ⟨kx, ky⟩, kz⟩
    · exact ⟨1, by decide, ⟨kx, ky⟩, kz⟩
    · exact ⟨2, by decide, ⟨kx, ky⟩, kz⟩
    · exact ⟨3, by decide, ⟨kx, ky⟩, kz⟩
    · exact ⟨4, by decide, ⟨kx, ky⟩, kz⟩
    · exact ⟨5, by decide, ⟨kx, ky⟩, kz⟩
    · exact ⟨6, by decide, ⟨kx, ky⟩, kz⟩
    · exact ⟨7, by decide, ⟨kx, ky⟩, kz⟩
  · rintro b ⟨⟨a1, a2, a3⟩, -, -⟩ t i hi ht
    simp only [OTIterCfg.relevant, hr, boxesOverlap, Bool.and_eq_true, decide_eq_true_eq] at ht ⊢
    interval_cases i <;> simp [childBoxNo] at ht <;> refine ⟨⟨⟨?_, ?_⟩, ?_, ?_⟩, ?_, ?_⟩ <;> linarith

end
end Verif.Octree
