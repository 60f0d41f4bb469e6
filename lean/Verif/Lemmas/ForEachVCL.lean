import Verif.Model.ForEachVCL
import Verif.Lemmas.ForEach
import Verif.Lemmas.VerletClusterIter
/-! `forEach` and `reduce` of VerletClusterLists. -/
namespace Verif
open Spec

section
variable {g : VCLGrid} {ox oy : Nat}

/-- Positions inside of the box are in towers that are not ignored when owned particles are asked for. -/
theorem VCLGrid.Ok.can_contain_owned (h : g.Ok ox oy) (he : g.Even) (hsmall : g.tx < 2 ^ 64 ∧ g.ty < 2 ^ 64) {p : V3 Rat}
    (hp : InBox p g.bMin g.bMax) : vclCanContainOwned g (g.to1D (g.towerAt p)) = true := by
  have hx : g.per = g.perX := by unfold VCLGrid.per VCLGrid.Even at *; omega
  have hy : g.per = g.perY := by unfold VCLGrid.per VCLGrid.Even at *; omega
  obtain ⟨q1, q2⟩ := h.owned_tower he hp
  obtain ⟨⟨a1, a2⟩, ⟨a3, a4⟩, a5, a6⟩ := hp
  have axis : ∀ {bMin bMax side : Rat} {o n T : Nat} (hs : 0 < side) (hbox : side * o = bMax - bMin) (hT : T = o + 2 * n) (x : Rat),
      bMin ≤ x → x < bMax → n ≤ vclDimIndex bMin (bMin - g.il) (bMax + g.il) side n T x ∧
        vclDimIndex bMin (bMin - g.il) (bMax + g.il) side n T x < T - n := by
    intro bMin bMax side o n T hs hbox hT x h1 h2
    have hil := h.ilPos
    unfold vclDimIndex
    rw [if_neg (by linarith), if_neg (by linarith)]
    have l1 : (0 : Int) ≤ ⌊(x - bMin) * (1 / side)⌋ := by
      rw [Int.le_floor]
      push_cast
      rw [mul_one_div, le_div_iff₀ hs]
      linarith
    have l2 : ⌊(x - bMin) * (1 / side)⌋ < (o : Int) := by
      rw [Int.floor_lt]
      push_cast
      rw [mul_one_div, div_lt_iff₀ hs]
      linarith
    omega
  obtain ⟨b1, b2⟩ := axis h.sxPos h.boxX (by rw [hx]; exact h.tx : g.tx = ox + 2 * g.per) p.x a1 a2
  obtain ⟨b3, b4⟩ := axis h.syPos h.boxY (by rw [hy]; exact h.ty : g.ty = oy + 2 * g.per) p.y a3 a4
  have e2 := VCLGrid.to2D_to1D (g := g) (h.towerAt_lt p).1
  have m1 : (g.tx + 2 ^ 64 - g.per) % 2 ^ 64 = g.tx - g.per := by omega
  have m2 : (g.ty + 2 ^ 64 - g.per) % 2 ^ 64 = g.ty - g.per := by omega
  unfold vclCanContainOwned
  rw [e2, m1, m2]
  rw [h.towerAt_eq] at q1 q2 ⊢
  simp only [Bool.and_eq_true, Bool.not_eq_true', Bool.or_eq_false_iff, decide_eq_false_iff_not]
  refine ⟨⟨by omega, by omega⟩, ⟨⟨by omega, by omega⟩, by omega⟩, by omega⟩

/-- A particle in the region that moved at most half the skin is stored in a tower that is looked at. -/
theorem vclRegionTowers_mem (h : g.Ok ox oy) (he : g.Even) (hsmall : g.tx < 2 ^ 64 ∧ g.ty < 2 ^ 64) {skin : Rat} {cells vecs : List (List Particle)}
    (hs : VCLStorage g (skin / 2) cells vecs) {behavior : Nat} (hb : behavior ∈ [1, 2, 3]) {lo hi : V3 Rat} {i : Nat} {p : Particle}
    (hp : p ∈ cells.getD i []) (hw : wanted behavior p.own = true) (hin : InBox p.pos lo hi) :
    i ∈ vclRegionTowers g skin behavior lo hi cells.length := by
  obtain ⟨old, hold, rfl, ho, mx, my, mz⟩ := hs.placed i p hp
  have hlt := h.towerAt_lt old
  have hlen : g.to1D (g.towerAt old) < cells.length := by rw [hs.len]; exact VCLGrid.to1D_lt hlt.1 hlt.2
  unfold vclRegionTowers
  rw [List.mem_filter, List.mem_range]
  refine ⟨hlen, ?_⟩
  rw [Bool.and_eq_true, VCLGrid.to2D_to1D hlt.1]
  constructor
  · unfold vclIgnoresTower
    by_cases hh : behavior &&& ibHalo ≠ 0
    · rw [if_pos hh]; rfl
    · rw [if_neg hh]
      have hb1 : behavior = 1 := by
        simp only [List.mem_cons, List.not_mem_nil, or_false] at hb
        rcases hb with rfl | rfl | rfl
        · rfl
        · exact absurd (by decide) hh
        · exact absurd (by decide) hh
      subst hb1
      have hown : p.own = .owned := by
        cases hc : p.own <;> rw [hc] at hw <;> first | rfl | exact absurd hw (by decide)
      rw [if_pos ⟨by decide, h.can_contain_owned he hsmall (ho hown)⟩]; rfl
  · obtain ⟨⟨u1, u2⟩, ⟨v1, v2⟩, w1, w2⟩ := h.in_towerBox he hold
    obtain ⟨⟨x1, x2⟩, ⟨y1, y2⟩, z1, z2⟩ := hin
    rw [abs_le] at mx my mz
    simp only [boxesOverlap, Bool.and_eq_true, decide_eq_true_eq]
    dsimp only [V3.addScalar]
    exact ⟨⟨⟨by linarith, by linarith⟩, by linarith, by linarith⟩, by linarith, by linarith⟩

end

theorem cellSelects_whole {behavior : Nat} (hb : NamedBehavior behavior) (p : Particle) :
    cellSelects (some behavior) none p = .ok (wanted behavior p.own) := by
  simp only [cellSelects, contains_named hb, Bool.and_true]

theorem cellSelects_region {behavior : Nat} (hb : NamedBehavior behavior) (lo hi : V3 Rat) (p : Particle) :
    cellSelects (some behavior) (some (lo, hi)) p = .ok (wanted behavior p.own && decide (InBox p.pos lo hi)) := by
  simp only [cellSelects, contains_named hb, inBoxB_iff]

theorem getD_of_not_mem_range {cells : List (List Particle)} {c : Nat} (hc : c ∉ List.range cells.length) : cells.getD c [] = [] := by
  rw [List.mem_range] at hc
  rw [List.getD_eq_getElem?_getD, List.getElem?_eq_none (by omega)]; rfl

/-- A loop over all vectors. -/
theorem forEachCells_range (behavior : Option Nat) (region : Option (V3 Rat × V3 Rat)) (sel : Particle → Bool)
    (h : ∀ p, cellSelects behavior region p = .ok (sel p)) (f : Particle → Particle) (cells : List (List Particle)) :
    forEachCells behavior region f (List.range cells.length) cells = .ok (applyTo sel f cells) := by
  apply forEachCells_all f _ List.nodup_range cells (fun c _ p _ => h p)
  intro c hc p hp
  rw [getD_of_not_mem_range hc] at hp
  cases hp

theorem reduceCells_range (behavior : Option Nat) (region : Option (V3 Rat × V3 Rat)) (sel : Particle → Bool)
    (h : ∀ p, cellSelects behavior region p = .ok (sel p)) {A : Type} (k : A → Particle → A) (cells : List (List Particle)) (a : A) :
    reduceCells behavior region k cells (List.range cells.length) a = .ok ((cells.flatten.filter sel).foldl k a) := by
  rw [reduceCells_ok k cells _ (fun c _ p _ => h p) a, range_flatMap_getD]

/-- Padding with unselected particles does not change what is selected. -/
theorem filter_padded (sel : Particle → Bool) (ts : List (List Particle × List Particle)) (h : ∀ t ∈ ts, ∀ p ∈ t.2, sel p = false) :
    (ts.map fun t => t.1 ++ t.2).flatten.filter sel = (ts.map Prod.fst).flatten.filter sel := by
  induction ts with
  | nil => rfl
  | cons t ts ih =>
    have h2 : t.2.filter sel = [] := List.filter_eq_nil_iff.2 fun p hp => by rw [h t (by simp) p hp]; simp
    simp only [List.map_cons, List.flatten_cons, List.filter_append, h2, List.append_nil]
    rw [ih fun t' ht' => h t' (by simp [ht'])]

theorem applyTo_padded (sel : Particle → Bool) (f : Particle → Particle) (ts : List (List Particle × List Particle))
    (h : ∀ t ∈ ts, ∀ p ∈ t.2, sel p = false) :
    applyTo sel f (ts.map fun t => t.1 ++ t.2) = ts.map fun t => (t.1.map fun p => if sel p then f p else p) ++ t.2 := by
  unfold applyTo
  rw [List.map_map]
  apply List.map_congr_left
  intro t ht
  simp only [Function.comp_apply, List.map_append, List.append_cancel_left_eq]
  apply (List.map_congr_left (g := id) _).trans (List.map_id _)
  intro p hp
  rw [h t ht p hp]; simp

end Verif
