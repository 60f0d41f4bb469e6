import Verif.Props.C85
import Verif.Model.MDBalance
/-!
# C86 — load balancing keeps the local boxes a tiling of the global box

Whatever loads the ranks report: after `balanceWithInvertedPressureLoadBalancer` the local boxes still tile the global box, no domain is narrower
than two interaction lengths, and no domain boundary passes over the old boundary of a neighbour — so every particle is afterwards in its old
domain or in one next to it, where the migration (C85) finds it.

This needs domains that are at least two interaction lengths wide in the first place, and a positive load
(`C86_violated_narrow`, `C86_violated_no_load`).
-/
namespace Verif
open Spec

variable {D : RGD} {cut : Axis → Nat → Rat} {work : V3 Nat → Rat}

/-- The load of a plane of ranks depends on the plane only. -/
theorem planeWork_put {r : V3 Nat} (d e : Axis) (he : e ≠ d) (j : Nat) (h1 : D.dec.at d.next * D.dec.at d.next.next > 1) :
    D.planeWork work d (r.put e j) = D.planeWork work d r := by
  unfold RGD.planeWork
  dsimp only
  rw [if_pos h1, if_pos h1]
  congr 3
  funext i
  congr 1
  funext k
  congr 1
  cases d <;> cases e <;> first | rfl | exact absurd rfl he

private theorem put_eq_of {r s : V3 Nat} {d : Axis} (h : s.at d = r.at d) :
    s = (r.put d.next (s.at d.next)).put d.next.next (s.at d.next.next) := by
  obtain ⟨a, b, c⟩ := r; obtain ⟨a', b', c'⟩ := s
  cases d <;> simp only [V3.at] at h <;> subst h <;> rfl

theorem planeWork_eq {r s : V3 Nat} (hr : IsRank D r) (hs : IsRank D s) {d : Axis} (h : s.at d = r.at d) :
    D.planeWork work d s = D.planeWork work d r := by
  have n1 : d.next ≠ d := by cases d <;> decide
  have n2 : d.next.next ≠ d := by cases d <;> decide
  by_cases h1 : D.dec.at d.next * D.dec.at d.next.next > 1
  · rw [put_eq_of h, planeWork_put d _ n2 _ h1, planeWork_put d _ n1 _ h1]
  · have a := isRank_iff.1 hr d.next
    have b := isRank_iff.1 hr d.next.next
    have a' := isRank_iff.1 hs d.next
    have b' := isRank_iff.1 hs d.next.next
    have hle : D.dec.at d.next * D.dec.at d.next.next ≤ 1 := not_lt.1 h1
    have q1 : D.dec.at d.next = 1 := by nlinarith
    have q2 : D.dec.at d.next.next = 1 := by nlinarith
    have : s = r := by
      rw [put_eq_of h, show s.at d.next = r.at d.next by omega, show s.at d.next.next = r.at d.next.next by omega, put_at, put_at]
    rw [this]

theorem sum_pos_of {l : List Rat} (hl : l ≠ []) (h : ∀ x ∈ l, 0 < x) : 0 < l.sum := by
  induction l with
  | nil => exact absurd rfl hl
  | cons a l ih =>
    rw [List.sum_cons]
    have ha := h a List.mem_cons_self
    by_cases hn : l = []
    · rw [hn]; simpa using ha
    · have := ih hn fun x hx => h x (List.mem_cons_of_mem _ hx)
      linarith

theorem planeWork_pos (hwork : ∀ r, IsRank D r → 0 < work r) {r : V3 Nat} (hr : IsRank D r) (d : Axis) : 0 < D.planeWork work d r := by
  unfold RGD.planeWork
  dsimp only
  have a := isRank_iff.1 hr d.next
  have b := isRank_iff.1 hr d.next.next
  split
  · next hc =>
    refine div_pos (sum_pos_of ?_ ?_) (by exact_mod_cast (by omega : 0 < D.dec.at d.next * D.dec.at d.next.next))
    · intro hn
      rw [List.flatMap_eq_nil_iff] at hn
      have := hn 0 (List.mem_range.2 (by omega))
      rw [List.map_eq_nil_iff, List.range_eq_nil] at this
      omega
    · intro x hx
      simp only [List.mem_flatMap, List.mem_map, List.mem_range] at hx
      obtain ⟨i, hi, j, hj, rfl⟩ := hx
      exact hwork _ (isRank_put (isRank_put hr hi) hj)
  · exact hwork r hr

/-- The balanced position of the wall between two domains: at least `minWidth` away from their outer ends. -/
theorem balance_between {a b l h m : Rat} (ha : 0 < a) (hb : 0 < b) (hm : 2 * m ≤ h - l) :
    ∃ p, balanceAdjacentDomains a b l h m = some p ∧ l + m ≤ p ∧ p ≤ h - m := by
  unfold balanceAdjacentDomains
  rw [if_neg (by linarith)]
  dsimp only
  generalize (a * l + b * h) / (a + b) = q
  by_cases c1 : q - l < m
  · rw [if_pos c1]; exact ⟨_, rfl, le_refl _, by linarith⟩
  · rw [if_neg c1]
    by_cases c2 : h - q < m
    · rw [if_pos c2]; exact ⟨_, rfl, by linarith, le_refl _⟩
    · rw [if_neg c2]; exact ⟨_, rfl, by linarith, by linarith⟩

/-- The grid of walls after balancing. -/
theorem C86_balance_keeps_tiling_partial (h : Tiling D cut D.minWidth) (hw : 0 ≤ D.minWidth)
    (hnear : ∀ d : Axis, max |D.gMin.at d| |D.gMax.at d| < 1000000000 * D.minWidth) (hwork : ∀ r, IsRank D r → 0 < work r) :
    ∃ (cut' : Axis → Nat → Rat) (D' : RGD), D' = { D with lo := D'.lo, hi := D'.hi } ∧
      (∀ r, IsRank D r → D.balanceBox work r = some (D'.lo r, D'.hi r)) ∧ Tiling D' cut' D.minWidth ∧
      ∀ d i, 0 < i → i < D.dec.at d → cut d (i - 1) + D.minWidth ≤ cut' d i ∧ cut' d i ≤ cut d (i + 1) - D.minWidth := by
  have hs := sharp_of_near h hw hnear
  -- the average work of plane `i` along `d`
  let plane : Axis → Nat → Rat := fun d i => D.planeWork work d ((⟨0, 0, 0⟩ : V3 Nat).put d i)
  have hzero : ∀ (d : Axis) (i : Nat), i < D.dec.at d → IsRank D ((⟨0, 0, 0⟩ : V3 Nat).put d i) := by
    intro d i hi
    refine isRank_put (isRank_iff.2 fun e => ?_) hi
    have := h.pos e
    cases e <;> exact this
  have hplane : ∀ (r : V3 Nat), IsRank D r → ∀ d, D.planeWork work d r = plane d (r.at d) := fun r hr d =>
    planeWork_eq (hzero d _ (isRank_iff.1 hr d)) hr (by rw [at_put_self])
  have hplpos : ∀ d i, i < D.dec.at d → 0 < plane d i := fun d i hi => planeWork_pos hwork (hzero d i hi) d
  -- the wall between the domains `i - 1` and `i`
  have hwall : ∀ d i, 0 < i → i < D.dec.at d → ∃ p,
      balanceAdjacentDomains (plane d (i - 1)) (plane d i) (cut d (i - 1)) (cut d (i + 1)) D.minWidth = some p ∧
        cut d (i - 1) + D.minWidth ≤ p ∧ p ≤ cut d (i + 1) - D.minWidth := by
    intro d i hi hi'
    have w1 := h.wide d (i - 1) (by omega)
    have w2 := h.wide d i hi'
    rw [show i - 1 + 1 = i by omega] at w1
    exact balance_between (hplpos d _ (by omega)) (hplpos d i hi') (by linarith)
  let wall : Axis → Nat → Rat := fun d i =>
    (balanceAdjacentDomains (plane d (i - 1)) (plane d i) (cut d (i - 1)) (cut d (i + 1)) D.minWidth).getD 0
  let cut' : Axis → Nat → Rat := fun d i => if 0 < i ∧ i < D.dec.at d then cut d i + (wall d i - cut d i) / 2 else cut d i
  have hwallp : ∀ d i, 0 < i → i < D.dec.at d →
      balanceAdjacentDomains (plane d (i - 1)) (plane d i) (cut d (i - 1)) (cut d (i + 1)) D.minWidth = some (wall d i) ∧
        cut d (i - 1) + D.minWidth ≤ wall d i ∧ wall d i ≤ cut d (i + 1) - D.minWidth := by
    intro d i hi hi'
    obtain ⟨p, e, b⟩ := hwall d i hi hi'
    have : wall d i = p := by show (balanceAdjacentDomains _ _ _ _ _).getD 0 = p; rw [e]; rfl
    rw [this]; exact ⟨e, b⟩
  have hlo : ∀ r, IsRank D r → ∀ d, D.balanceLo work d r = some (cut' d (r.at d)) := by
    intro r hr d
    have hd := isRank_iff.1 hr d
    unfold RGD.balanceLo
    dsimp only
    rw [hs.min r hr, h.lo r hr]
    by_cases hz : r.at d = 0
    · rw [if_pos (by simp [hz])]
      show _ = some (if 0 < r.at d ∧ r.at d < D.dec.at d then _ else _)
      rw [if_neg (by omega)]
    · rw [if_neg (by simp [hz]), hplane _ (isRank_left hr d), hplane r hr, h.lo _ (isRank_left hr d), h.hi r hr, left_at hr, at_put_self, if_neg hz,
        (hwallp d (r.at d) (by omega) hd).1]
      show _ = some (if 0 < r.at d ∧ r.at d < D.dec.at d then _ else _)
      rw [if_pos ⟨by omega, hd⟩]; rfl
  have hhi : ∀ r, IsRank D r → ∀ d, D.balanceHi work d r = some (cut' d (r.at d + 1)) := by
    intro r hr d
    have hd := isRank_iff.1 hr d
    unfold RGD.balanceHi
    dsimp only
    rw [hs.max r hr, h.hi r hr]
    by_cases hz : r.at d + 1 = D.dec.at d
    · rw [if_pos (by simp [hz])]
      show _ = some (if 0 < r.at d + 1 ∧ r.at d + 1 < D.dec.at d then _ else _)
      rw [if_neg (by omega)]
    · have hq := (hwallp d (r.at d + 1) (by omega) (by omega)).1
      rw [show r.at d + 1 - 1 = r.at d by omega] at hq
      rw [if_neg (by simp [hz]), hplane _ (isRank_right hr d), hplane r hr, h.hi _ (isRank_right hr d), h.lo r hr, right_at hr, at_put_self, if_neg hz, hq]
      show _ = some (if 0 < r.at d + 1 ∧ r.at d + 1 < D.dec.at d then _ else _)
      rw [if_pos ⟨by omega, by omega⟩]; rfl
  let D' : RGD := { D with
    lo := fun r => ⟨cut' .x r.x, cut' .y r.y, cut' .z r.z⟩
    hi := fun r => ⟨cut' .x (r.x + 1), cut' .y (r.y + 1), cut' .z (r.z + 1)⟩ }
  refine ⟨cut', D', rfl, ?_, ⟨h.pos, ?_, ?_, ?_, ?_, ?_⟩, ?_⟩
  · intro r hr
    unfold RGD.balanceBox
    rw [hlo r hr, hlo r hr, hlo r hr, hhi r hr, hhi r hr, hhi r hr]
    rfl
  · intro d
    show (if 0 < 0 ∧ 0 < D.dec.at d then _ else _) = _
    rw [if_neg (by omega)]; exact h.first d
  · intro d
    show (if 0 < D.dec.at d ∧ D.dec.at d < D.dec.at d then _ else _) = _
    rw [if_neg (by omega)]; exact h.last d
  · intro d i hi
    have hi : i < D.dec.at d := hi
    show D.minWidth ≤ (if 0 < i + 1 ∧ i + 1 < D.dec.at d then _ else _) - (if 0 < i ∧ i < D.dec.at d then _ else _)
    have w0 := h.wide d i hi
    by_cases c1 : 0 < i + 1 ∧ i + 1 < D.dec.at d
    · obtain ⟨-, a1, a2⟩ := hwallp d (i + 1) c1.1 c1.2
      rw [show i + 1 - 1 = i by omega] at a1
      rw [if_pos c1]
      by_cases c2 : 0 < i ∧ i < D.dec.at d
      · obtain ⟨-, b1, b2⟩ := hwallp d i c2.1 c2.2
        rw [if_pos c2]; linarith
      · rw [if_neg c2]; linarith
    · rw [if_neg c1]
      by_cases c2 : 0 < i ∧ i < D.dec.at d
      · obtain ⟨-, b1, b2⟩ := hwallp d i c2.1 c2.2
        rw [if_pos c2]; linarith
      · rw [if_neg c2]; exact w0
  · intro r _ d; cases d <;> rfl
  · intro r _ d; cases d <;> rfl
  · intro d i h0 hi
    obtain ⟨-, b1, b2⟩ := hwallp d i h0 hi
    show _ ≤ (if 0 < i ∧ i < D.dec.at d then _ else _) ∧ (if 0 < i ∧ i < D.dec.at d then _ else _) ≤ _
    rw [if_pos ⟨h0, hi⟩]
    have w1 := h.wide d (i - 1) (by omega)
    have w2 := h.wide d i hi
    rw [show i - 1 + 1 = i by omega] at w1
    constructor <;> linarith

/-- After balancing, a particle that was within `s` of the local box of its rank (where it may just have moved to) has not gone further than the
neighbouring domain: the migration will find it. -/
theorem C86_particles_stay_close (D D' : RGD) (cut cut' : Axis → Nat → Rat) (s : Rat) (hD' : D' = { D with lo := D'.lo, hi := D'.hi })
    (h : Tiling D cut D.minWidth) (hs : s ≤ D.minWidth)
    (hcut : ∀ d i, 0 < i → i < D.dec.at d → cut d (i - 1) + D.minWidth ≤ cut' d i ∧ cut' d i ≤ cut d (i + 1) - D.minWidth)
    (h' : Tiling D' cut' D.minWidth) (r : V3 Nat) (hr : IsRank D r) (d : Axis) (x : Rat) (h1 : (D.lo r).at d - s ≤ x) (h2 : x < (D.hi r).at d + s) :
    NotFar D' cut' s r d x := by
  have hd := isRank_iff.1 hr d
  have g1 : D'.gMin = D.gMin := by rw [hD']
  have g2 : D'.gMax = D.gMax := by rw [hD']
  have g3 : D'.dec = D.dec := by rw [hD']
  rw [h.lo r hr] at h1
  rw [h.hi r hr] at h2
  unfold NotFar
  rw [g1, g2, g3]
  constructor
  · by_cases hz : r.at d = 0
    · rw [if_pos hz]; rw [hz, h.first] at h1; exact h1
    · rw [if_neg hz]
      by_cases h1' : r.at d = 1
      · have f := h'.first d
        rw [g1] at f
        rw [h1', f]
        have w1 := h.wide d 0 (by omega)
        rw [h.first] at w1
        rw [h1'] at h1
        linarith
      · have := (hcut d (r.at d - 1) (by omega) (by omega)).2
        rw [show r.at d - 1 + 1 = r.at d by omega] at this
        linarith
  · by_cases hz : r.at d + 1 = D.dec.at d
    · rw [if_pos hz]; rw [hz, h.last] at h2; exact h2
    · rw [if_neg hz]
      by_cases h1' : r.at d + 2 = D.dec.at d
      · have f := h'.last d
        rw [g2, g3] at f
        rw [h1', f]
        have w1 := h.wide d (r.at d + 1) (by omega)
        rw [show r.at d + 1 + 1 = D.dec.at d by omega, h.last] at w1
        linarith
      · have := (hcut d (r.at d + 2) (by omega) (by omega)).1
        rw [show r.at d + 2 - 1 = r.at d + 1 by omega] at this
        linarith

/-! ### Non-vacuity -/

private def exBalD : RGD := RGD.init ⟨0, 0, 0⟩ ⟨12, 6, 6⟩ ⟨3, 2, 1⟩ ⟨.periodic, .periodic, .periodic⟩ 1 (1/5)
private def exBalWork : V3 Nat → Rat := fun r => 1 + 3 * r.x + r.y

example : ∃ (cut' : Axis → Nat → Rat) (D' : RGD), D' = { exBalD with lo := D'.lo, hi := D'.hi } ∧
      (∀ r, IsRank exBalD r → exBalD.balanceBox exBalWork r = some (D'.lo r, D'.hi r)) ∧ Tiling D' cut' exBalD.minWidth := by
  have h : Tiling exBalD (fun d i => i * (((⟨12, 6, 6⟩ : V3 Rat).at d - (⟨0, 0, 0⟩ : V3 Rat).at d) / (⟨3, 2, 1⟩ : V3 Nat).at d) +
      (⟨0, 0, 0⟩ : V3 Rat).at d) exBalD.minWidth :=
    C83_local_boxes_tile _ _ _ _ _ _ _ (by intro d; cases d <;> decide) (by intro d; cases d <;> norm_num [V3.at, RGD.init, exBalD, RGD.minWidth])
  obtain ⟨c, D', a, b, e, -⟩ := C86_balance_keeps_tiling_partial (work := exBalWork) h (by norm_num [exBalD, RGD.init, RGD.minWidth])
    (by intro d; cases d <;> norm_num [exBalD, RGD.init, V3.at, RGD.minWidth, abs_of_pos]) (by intro r _; unfold exBalWork; positivity)
  exact ⟨c, D', a, b, e⟩

/-- The rank with less work grows, the rank with more work shrinks. -/
example : (exBalD.balanceBox exBalWork ⟨0, 0, 0⟩).any (fun b => decide (4 < b.2.x)) = true ∧
    (exBalD.balanceBox exBalWork ⟨2, 1, 0⟩).any (fun b => decide (8 < b.1.x)) = true := by decide +kernel

/-! ### Where the property fails -/

/-- Domains one interaction length wide, which the container accepts: balancing makes one of them narrower than the interaction length, which it does
not accept. -/
theorem C86_violated_narrow : ∃ (D : RGD) (work : V3 Nat → Rat), (∃ cut, Tiling D cut (reach D)) ∧ (∀ r, IsRank D r → 0 < work r) ∧
    ∃ r b, IsRank D r ∧ D.balanceBox work r = some b ∧ b.2.x - b.1.x < reach D := by
  refine ⟨RGD.init ⟨0, 0, 0⟩ ⟨2, 2, 2⟩ ⟨2, 1, 1⟩ ⟨.periodic, .periodic, .periodic⟩ 1 0, fun _ => 1, ⟨_, C83_local_boxes_tile _ _ _ _ _ _ _
    (by intro d; cases d <;> decide) (by intro d; cases d <;> norm_num [V3.at, reach, RGD.init])⟩, fun _ _ => by norm_num, ⟨1, 0, 0⟩,
    (⟨3/2, 0, 0⟩, ⟨2, 2, 2⟩), by decide, by decide +kernel, by decide +kernel⟩

/-- Two neighbouring ranks without any load: their common wall is not a number afterwards. -/
theorem C86_violated_no_load : ∃ (D : RGD) (work : V3 Nat → Rat), (∃ cut, Tiling D cut D.minWidth) ∧ (∀ r, IsRank D r → 0 ≤ work r) ∧
    ∃ r, IsRank D r ∧ D.balanceBox work r = none := by
  refine ⟨RGD.init ⟨0, 0, 0⟩ ⟨8, 8, 8⟩ ⟨2, 1, 1⟩ ⟨.periodic, .periodic, .periodic⟩ 1 0, fun _ => 0, ⟨_, C83_local_boxes_tile _ _ _ _ _ _ _
    (by intro d; cases d <;> decide) (by intro d; cases d <;> norm_num [V3.at, RGD.minWidth, RGD.init])⟩, fun _ _ => le_refl _, ⟨1, 0, 0⟩, by decide,
    by decide +kernel⟩

end Verif
