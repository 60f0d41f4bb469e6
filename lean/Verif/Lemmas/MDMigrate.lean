import Verif.Lemmas.MDHalo
import Verif.Spec.MDMigrate
/-! One round of the migration of md-flexible, and all three. -/
namespace Verif
open Spec

variable {D : RGD} {cut : Axis → Nat → Rat} {w : Rat}

theorem left_right {r : V3 Nat} (hr : IsRank D r) (d : Axis) : D.left d (D.right d r) = r := by
  have h := isRank_iff.1 hr d
  rw [left_at (isRank_right hr d), right_at hr, put_put, at_put_self]
  conv_rhs => rw [← put_at r d]
  congr 1
  by_cases h0 : r.at d + 1 = D.dec.at d
  · rw [if_pos h0, if_pos rfl]; omega
  · rw [if_neg h0, if_neg (by omega)]; omega

theorem right_left {r : V3 Nat} (hr : IsRank D r) (d : Axis) : D.right d (D.left d r) = r := by
  have h := isRank_iff.1 hr d
  rw [right_at (isRank_left hr d), left_at hr, put_put, at_put_self]
  conv_rhs => rw [← put_at r d]
  congr 1
  by_cases h0 : r.at d = 0
  · rw [if_pos h0, if_pos (by omega)]; omega
  · rw [if_neg h0, if_neg (by omega)]; omega

theorem map_left_perm (d : Axis) : ((ranks D.dec).map (D.left d)).Perm (ranks D.dec) := by
  refine (List.perm_ext_iff_of_nodup ?_ (ranks_nodup _)).2 fun r => ?_
  · refine List.Nodup.map_on (fun a ha b hb hab => ?_) (ranks_nodup _)
    have := congrArg (D.right d) hab
    rwa [right_left (mem_ranks.1 ha), right_left (mem_ranks.1 hb)] at this
  · rw [List.mem_map]
    exact ⟨fun ⟨s, hs, e⟩ => e ▸ mem_ranks.2 (isRank_left (mem_ranks.1 hs) d),
      fun hr => ⟨_, mem_ranks.2 (isRank_right (mem_ranks.1 hr) d), left_right (mem_ranks.1 hr) d⟩⟩

theorem map_right_perm (d : Axis) : ((ranks D.dec).map (D.right d)).Perm (ranks D.dec) := by
  refine (List.perm_ext_iff_of_nodup ?_ (ranks_nodup _)).2 fun r => ?_
  · refine List.Nodup.map_on (fun a ha b hb hab => ?_) (ranks_nodup _)
    have := congrArg (D.left d) hab
    rwa [left_right (mem_ranks.1 ha), left_right (mem_ranks.1 hb)] at this
  · rw [List.mem_map]
    exact ⟨fun ⟨s, hs, e⟩ => e ▸ mem_ranks.2 (isRank_right (mem_ranks.1 hs) d),
      fun hr => ⟨_, mem_ranks.2 (isRank_left (mem_ranks.1 hr) d), right_left (mem_ranks.1 hr) d⟩⟩

theorem flatMap_append_distrib {α β : Type _} (l : List α) (f g : α → List β) :
    (l.flatMap fun a => f a ++ g a).Perm (l.flatMap f ++ l.flatMap g) := by
  induction l with
  | nil => exact List.Perm.refl _
  | cons a l ih =>
    simp only [List.flatMap_cons]
    rw [List.append_assoc, List.append_assoc]
    refine List.Perm.append_left _ ?_
    refine (List.Perm.append_left _ ih).trans ?_
    rw [← List.append_assoc, ← List.append_assoc]
    exact List.Perm.append_right _ List.perm_append_comm

/-- Nothing is lost or duplicated in one exchange. -/
theorem exchange_all (d : Axis) (toLeft toRight : V3 Nat → List Particle) :
    ((ranks D.dec).flatMap (D.exchange d toLeft toRight)).Perm ((ranks D.dec).flatMap fun r => toLeft r ++ toRight r) := by
  refine (flatMap_perm_pointwise fun r hr => exchange_perm (mem_ranks.1 hr) d toLeft toRight).trans ?_
  refine (flatMap_append_distrib _ _ _).trans ?_
  refine List.Perm.trans ?_ (flatMap_append_distrib _ _ _).symm
  refine (List.Perm.append ?_ ?_).trans List.perm_append_comm
  · rw [← List.flatMap_map (D.left d) toRight]; exact (map_left_perm d).flatMap_right _
  · rw [← List.flatMap_map (D.right d) toLeft]; exact (map_right_perm d).flatMap_right _

/-- One coordinate put back into the global box. -/
def rewrapAt (D : RGD) (wr : Wrap) (d : Axis) (p : Particle) : Particle := p.place d (rewrapCoord D wr d (p.pos.at d))

theorem rewrapAt_id {wr : Wrap} {d : Axis} {p : Particle} (h1 : D.gMin.at d ≤ p.pos.at d) (h2 : p.pos.at d < D.gMax.at d) :
    rewrapAt D wr d p = p := by
  unfold rewrapAt rewrapCoord Particle.place
  rw [if_neg (not_lt.2 h1), if_neg (not_le.2 h2), put_at]

theorem rewrap_eq (wr : Wrap) (p : Particle) : rewrapAt D wr .z (rewrapAt D wr .y (rewrapAt D wr .x p)) = rewrap D wr p := rfl

/-- A coordinate of a particle is within the local box of a rank. -/
def CoordInRange (D : RGD) (d : Axis) (r : V3 Nat) (p : Particle) : Prop := (D.lo r).at d ≤ p.pos.at d ∧ p.pos.at d < (D.hi r).at d

theorem lo_put (h : Tiling D cut w) {r : V3 Nat} (hr : IsRank D r) {d e : Axis} (he : e ≠ d) {j : Nat} (hj : j < D.dec.at d) :
    (D.lo (r.put d j)).at e = (D.lo r).at e := by rw [h.lo _ (isRank_put hr hj), h.lo _ hr, at_put_ne _ _ he]

theorem hi_put (h : Tiling D cut w) {r : V3 Nat} (hr : IsRank D r) {d e : Axis} (he : e ≠ d) {j : Nat} (hj : j < D.dec.at d) :
    (D.hi (r.put d j)).at e = (D.hi r).at e := by rw [h.hi _ (isRank_put hr hj), h.hi _ hr, at_put_ne _ _ he]

theorem left_other (h : Tiling D cut w) {r : V3 Nat} (hr : IsRank D r) {d e : Axis} (he : e ≠ d) :
    (D.lo (D.left d r)).at e = (D.lo r).at e ∧ (D.hi (D.left d r)).at e = (D.hi r).at e := by
  have h1 := isRank_iff.1 (isRank_left hr d) d
  rw [left_at hr, at_put_self] at h1
  rw [left_at hr]
  exact ⟨lo_put h hr he h1, hi_put h hr he h1⟩

theorem right_other (h : Tiling D cut w) {r : V3 Nat} (hr : IsRank D r) {d e : Axis} (he : e ≠ d) :
    (D.lo (D.right d r)).at e = (D.lo r).at e ∧ (D.hi (D.right d r)).at e = (D.hi r).at e := by
  have h1 := isRank_iff.1 (isRank_right hr d) d
  rw [right_at hr, at_put_self] at h1
  rw [right_at hr]
  exact ⟨lo_put h hr he h1, hi_put h hr he h1⟩

theorem left_idx {r : V3 Nat} (hr : IsRank D r) {d e : Axis} (he : e ≠ d) : (D.left d r).at e = r.at e := by
  rw [left_at hr, at_put_ne _ _ he]

theorem right_idx {r : V3 Nat} (hr : IsRank D r) {d e : Axis} (he : e ≠ d) : (D.right d r).at e = r.at e := by
  rw [right_at hr, at_put_ne _ _ he]

theorem place_at (p : Particle) (d : Axis) (c : Rat) : (p.place d c).pos.at d = c := at_put_self _ _ _
theorem place_at_ne (p : Particle) {d e : Axis} (c : Rat) (h : e ≠ d) : (p.place d c).pos.at e = p.pos.at e := at_put_ne _ _ h
theorem rewrapAt_ne (wr : Wrap) (p : Particle) {d e : Axis} (h : e ≠ d) : (rewrapAt D wr d p).pos.at e = p.pos.at e := place_at_ne _ _ h
theorem rewrapAt_at (wr : Wrap) (p : Particle) (d : Axis) : (rewrapAt D wr d p).pos.at d = rewrapCoord D wr d (p.pos.at d) := place_at _ _ _

variable {wr : Wrap} {s : Rat}

/-- Leaving to the left: the coordinate is then in the left neighbour's range. -/
theorem go_left (h : Tiling D cut w) (hs : Sharp D) (hwr : WrapOk D cut wr) (h0 : 0 ≤ s)
    {d : Axis} (hsw : s + 1 / 2 ^ 53 * max |D.gMin.at d| |D.gMax.at d| ≤ w) {r : V3 Nat} (hr : IsRank D r) {p : Particle}
    (hp : p.pos.at d < (D.lo r).at d) (hfar : NotFar D cut s r d (p.pos.at d)) :
    (if D.atMin d r then p.place d (min (wr.inside d) (wr.rnd (p.pos.at d + D.length d))) else p) = rewrapAt D wr d p ∧
      CoordInRange D d (D.left d r) (rewrapAt D wr d p) := by
  have hd := isRank_iff.1 hr d
  have hL := isRank_left hr d
  have hM : 0 ≤ 1 / 2 ^ 53 * max |D.gMin.at d| |D.gMax.at d| := by positivity
  have hw : 0 ≤ w := by linarith
  rw [hs.min r hr d]
  unfold CoordInRange
  rw [h.lo _ hL, h.hi _ hL, rewrapAt_at, left_at hr, at_put_self]
  rw [h.lo r hr] at hp
  have hc := hfar.1
  by_cases hz : r.at d = 0
  · rw [if_pos (by simp [hz]), if_pos hz]
    rw [if_pos hz] at hc
    rw [hz, h.first] at hp
    unfold rewrapAt rewrapCoord
    rw [if_pos hp]
    refine ⟨rfl, le_min (hwr.inside_ge d _ (by omega)) ?_, ?_⟩
    · set x := p.pos.at d + (D.gMax.at d - D.gMin.at d) with hx
      have wl := h.wide d (D.dec.at d - 1) (by omega)
      rw [show D.dec.at d - 1 + 1 = D.dec.at d by omega, h.last] at wl
      have hnn := cut_mono h hw (d := d) (Nat.zero_le (D.dec.at d - 1)) (by omega)
      rw [h.first] at hnn
      have hxa : |x| ≤ max |D.gMin.at d| |D.gMax.at d| := by
        refine abs_le.2 ⟨?_, ?_⟩
        · have := neg_abs_le (D.gMin.at d); have := le_max_left |D.gMin.at d| |D.gMax.at d|
          linarith
        · have := le_abs_self (D.gMax.at d); have := le_max_right |D.gMin.at d| |D.gMax.at d|
          linarith
      have he := abs_le.1 (hwr.rounding.err x)
      have hmul : (1 : Rat) / 2 ^ 53 * |x| ≤ 1 / 2 ^ 53 * max |D.gMin.at d| |D.gMax.at d| :=
        mul_le_mul_of_nonneg_left hxa (by positivity)
      linarith [he.1]
    · rw [show D.dec.at d - 1 + 1 = D.dec.at d by omega, h.last]
      exact lt_of_le_of_lt (min_le_left _ _) (hwr.inside_lt d)
  · rw [if_neg (by simp [hz]), if_neg hz, show r.at d - 1 + 1 = r.at d by omega]
    rw [if_neg hz] at hc
    have h1 := cut_mono h hw (d := d) (Nat.zero_le (r.at d - 1)) (by omega)
    have h2 := cut_mono h hw (d := d) hd.le le_rfl
    rw [h.first] at h1
    rw [h.last] at h2
    have e := rewrapAt_id (wr := wr) (D := D) (p := p) (d := d) (by linarith) (by linarith)
    have e' : rewrapCoord D wr d (p.pos.at d) = p.pos.at d := by rw [← rewrapAt_at, e]
    rw [e, e']
    exact ⟨rfl, hc, hp⟩

/-- Leaving to the right. -/
theorem go_right (h : Tiling D cut w) (hs : Sharp D) (hwr : WrapOk D cut wr) (h0 : 0 ≤ s)
    {d : Axis} (hsw : s + 1 / 2 ^ 53 * max |D.gMin.at d| |D.gMax.at d| ≤ w) {r : V3 Nat} (hr : IsRank D r) {p : Particle}
    (hp : (D.hi r).at d ≤ p.pos.at d) (hfar : NotFar D cut s r d (p.pos.at d)) :
    (if D.atMax d r then p.place d (max (D.gMin.at d) (wr.rnd (p.pos.at d - D.length d))) else p) = rewrapAt D wr d p ∧
      CoordInRange D d (D.right d r) (rewrapAt D wr d p) := by
  have hd := isRank_iff.1 hr d
  have hR := isRank_right hr d
  have hM : 0 ≤ 1 / 2 ^ 53 * max |D.gMin.at d| |D.gMax.at d| := by positivity
  have hw : 0 ≤ w := by linarith
  rw [hs.max r hr d]
  unfold CoordInRange
  rw [h.lo _ hR, h.hi _ hR, rewrapAt_at, right_at hr, at_put_self]
  rw [h.hi r hr] at hp
  have hc := hfar.2
  by_cases hz : r.at d + 1 = D.dec.at d
  · rw [if_pos (by simp [hz]), if_pos hz]
    rw [if_pos hz] at hc
    rw [hz, h.last] at hp
    have wl := h.wide d 0 (by omega)
    rw [h.first] at wl
    have hnn := cut_mono h hw (d := d) (show 0 + 1 ≤ D.dec.at d by omega) le_rfl
    rw [h.last] at hnn
    unfold rewrapAt rewrapCoord
    rw [if_neg (by linarith), if_pos hp]
    refine ⟨rfl, ?_, max_lt ?_ ?_⟩
    · rw [h.first]; exact le_max_left _ _
    · linarith
    · set x := p.pos.at d - (D.gMax.at d - D.gMin.at d) with hx
      have hxa : |x| ≤ max |D.gMin.at d| |D.gMax.at d| := by
        refine abs_le.2 ⟨?_, ?_⟩
        · have := neg_abs_le (D.gMin.at d); have := le_max_left |D.gMin.at d| |D.gMax.at d|
          linarith
        · have := le_abs_self (D.gMax.at d); have := le_max_right |D.gMin.at d| |D.gMax.at d|
          linarith
      have he := abs_le.1 (hwr.rounding.err x)
      have hmul : (1 : Rat) / 2 ^ 53 * |x| ≤ 1 / 2 ^ 53 * max |D.gMin.at d| |D.gMax.at d| :=
        mul_le_mul_of_nonneg_left hxa (by positivity)
      linarith [he.2]
  · rw [if_neg (by simp [hz]), if_neg hz]
    rw [if_neg hz] at hc
    have h1 := cut_mono h hw (d := d) (Nat.zero_le (r.at d + 1)) (by omega)
    have h2 := cut_mono h hw (d := d) (show r.at d + 1 + 1 ≤ D.dec.at d by omega) le_rfl
    rw [h.first] at h1
    rw [h.last] at h2
    have e := rewrapAt_id (wr := wr) (D := D) (p := p) (d := d) (by linarith) (by linarith)
    have e' : rewrapCoord D wr d (p.pos.at d) = p.pos.at d := by rw [← rewrapAt_at, e]
    rw [e, e']
    exact ⟨rfl, hp, hc⟩

theorem range_global (h : Tiling D cut w) (hw : 0 ≤ w) {r : V3 Nat} (hr : IsRank D r) {d : Axis} {p : Particle} (hp : CoordInRange D d r p) :
    D.gMin.at d ≤ p.pos.at d ∧ p.pos.at d < D.gMax.at d := by
  unfold CoordInRange at hp
  rw [h.lo _ hr, h.hi _ hr] at hp
  have b1 := cut_mono h hw (d := d) (Nat.zero_le (r.at d)) (isRank_iff.1 hr d).le
  have b2 := cut_mono h hw (d := d) (Nat.succ_le_of_lt (isRank_iff.1 hr d)) le_rfl
  rw [h.first] at b1
  rw [h.last] at b2
  exact ⟨by linarith [hp.1], by linarith [hp.2]⟩

/-- A particle that is within `s` of its domain has not gone far. -/
theorem notFar_of_close (h : Tiling D cut w) (hw : s ≤ w) {r : V3 Nat} (hr : IsRank D r) {d : Axis} {x : Rat}
    (h1 : (D.lo r).at d - s ≤ x) (h2 : x < (D.hi r).at d + s) : NotFar D cut s r d x := by
  have hd := isRank_iff.1 hr d
  rw [h.lo r hr] at h1
  rw [h.hi r hr] at h2
  constructor
  · by_cases hz : r.at d = 0
    · rw [if_pos hz]; rw [hz, h.first] at h1; exact h1
    · rw [if_neg hz]
      have wl := h.wide d (r.at d - 1) (by omega)
      rw [show r.at d - 1 + 1 = r.at d by omega] at wl
      linarith
  · by_cases hz : r.at d + 1 = D.dec.at d
    · rw [if_pos hz]; rw [hz, h.last] at h2; exact h2
    · rw [if_neg hz]
      have wl := h.wide d (r.at d + 1) (by omega)
      linarith

/-- Between two rounds: `todo` are the dimensions still to come. -/
structure Moving (D : RGD) (cut : Axis → Nat → Rat) (s : Rat) (todo : List Axis) (m : Migration) : Prop where
  home : ∀ r, IsRank D r → ∀ p ∈ m.added r, InBox p.pos (D.lo r) (D.hi r)
  done : ∀ r, IsRank D r → ∀ p ∈ m.em r, ∀ d, d ∉ todo → CoordInRange D d r p
  away : ∀ r, IsRank D r → ∀ p ∈ m.em r, ∃ d ∈ todo, ¬ CoordInRange D d r p
  close : ∀ r, IsRank D r → ∀ p ∈ m.em r, ∀ d ∈ todo, NotFar D cut s r d (p.pos.at d)
  global : ∀ r, IsRank D r → ∀ p ∈ m.em r, ∀ d ∈ todo, D.boundary.at d ≠ .periodic → D.gMin.at d ≤ p.pos.at d ∧ p.pos.at d < D.gMax.at d

/-- Everything there is at the moment. -/
def Migration.all (D : RGD) (m : Migration) : List Particle := (ranks D.dec).flatMap m.added ++ (ranks D.dec).flatMap m.em

theorem skip_iff (hs : Sharp D) {r : V3 Nat} (hr : IsRank D r) (d : Axis) :
    D.skip d r = decide (D.boundary.at d ≠ .periodic ∧ D.dec.at d = 1) := by
  have h := isRank_iff.1 hr d
  unfold RGD.skip
  rw [hs.min r hr, hs.max r hr]
  by_cases h1 : D.boundary.at d = .periodic
  · simp [h1]
  · by_cases h2 : D.dec.at d = 1
    · have : r.at d = 0 := by omega
      simp [h1, h2, this]
    · have : ¬ (r.at d = 0 ∧ r.at d + 1 = D.dec.at d) := by omega
      simp only [h1, h2, ne_eq, not_false_eq_true, decide_true, Bool.true_and, and_false, decide_false, ← Bool.decide_and, this]

theorem recv_mem (h : Tiling D cut w) (hs : Sharp D) (hwr : WrapOk D cut wr) (h0 : 0 ≤ s)
    {d : Axis} (hsw : s + 1 / 2 ^ 53 * max |D.gMin.at d| |D.gMax.at d| ≤ w) {em : V3 Nat → List Particle}
    (hclose : ∀ r, IsRank D r → ∀ p ∈ em r, NotFar D cut s r d (p.pos.at d))
    {r : V3 Nat} (hr : IsRank D r) {q : Particle} (hq : q ∈ D.exchange d (D.migLeft wr d em) (D.migRight wr d em) r) :
    ∃ t, IsRank D t ∧ (∀ e, e ≠ d → t.at e = r.at e) ∧ (∀ e, e ≠ d → (D.lo t).at e = (D.lo r).at e ∧ (D.hi t).at e = (D.hi r).at e) ∧
      ∃ p ∈ em t, q = rewrapAt D wr d p ∧ CoordInRange D d r q := by
  rw [(exchange_perm hr d _ _).mem_iff, List.mem_append] at hq
  rcases hq with hq | hq
  · have hL := isRank_left hr d
    unfold RGD.migRight at hq
    rw [List.mem_map] at hq
    obtain ⟨p, hp, rfl⟩ := hq
    rw [List.mem_filter, Bool.and_eq_true, decide_eq_true_eq] at hp
    obtain ⟨a, b⟩ := go_right h hs hwr h0 hsw hL hp.2.2 (hclose _ hL p hp.1)
    rw [right_left hr] at b
    refine ⟨D.left d r, hL, fun e he => left_idx hr he, fun e he => left_other h hr he, p, hp.1, a, ?_⟩
    rw [a]; exact b
  · have hR := isRank_right hr d
    unfold RGD.migLeft at hq
    rw [List.mem_map] at hq
    obtain ⟨p, hp, rfl⟩ := hq
    rw [List.mem_filter, decide_eq_true_eq] at hp
    obtain ⟨a, b⟩ := go_left h hs hwr h0 hsw hR hp.2 (hclose _ hR p hp.1)
    rw [left_right hr] at b
    refine ⟨D.right d r, hR, fun e he => right_idx hr he, fun e he => right_other h hr he, p, hp.1, a, ?_⟩
    rw [a]; exact b

/-- One particle goes to exactly one of the three lists. -/
theorem parts_perm (h : Tiling D cut w) (hs : Sharp D) (hwr : WrapOk D cut wr) (h0 : 0 ≤ s)
    {d : Axis} (hsw : s + 1 / 2 ^ 53 * max |D.gMin.at d| |D.gMax.at d| ≤ w) {em : V3 Nat → List Particle}
    (hclose : ∀ r, IsRank D r → ∀ p ∈ em r, NotFar D cut s r d (p.pos.at d))
    {r : V3 Nat} (hr : IsRank D r) :
    (D.migStay d em r ++ (D.migLeft wr d em r ++ D.migRight wr d em r)).Perm ((em r).map (rewrapAt D wr d)) := by
  have hM : 0 ≤ 1 / 2 ^ 53 * max |D.gMin.at d| |D.gMax.at d| := by positivity
  have hw : 0 ≤ w := by linarith
  have hc := hclose r hr
  unfold RGD.migStay RGD.migLeft RGD.migRight
  generalize em r = l at hc
  have e1 : ∀ l : List Particle, (∀ p ∈ l, NotFar D cut s r d (p.pos.at d)) →
      (l.filter (fun p => !decide (p.pos.at d < (D.lo r).at d) && !decide (p.pos.at d ≥ (D.hi r).at d)) ++
        ((l.filter (fun p => decide (p.pos.at d < (D.lo r).at d))).map (fun p =>
          if D.atMin d r then p.place d (min (wr.inside d) (wr.rnd (p.pos.at d + D.length d))) else p) ++
        (l.filter (fun p => !decide (p.pos.at d < (D.lo r).at d) && decide (p.pos.at d ≥ (D.hi r).at d))).map (fun p =>
          if D.atMax d r then p.place d (max (D.gMin.at d) (wr.rnd (p.pos.at d - D.length d))) else p))).Perm (l.map (rewrapAt D wr d)) := by
    intro l
    induction l with
    | nil => intro _; exact List.Perm.refl _
    | cons p l ih =>
      intro hl
      have ih' := ih fun q hq => hl q (List.mem_cons_of_mem _ hq)
      have hp := hl p List.mem_cons_self
      rw [List.filter_cons, List.filter_cons, List.filter_cons, List.map_cons]
      by_cases c1 : p.pos.at d < (D.lo r).at d
      · rw [if_neg (by simp [c1]), if_pos (by simp [c1]), if_neg (by simp [c1]), List.map_cons, (go_left h hs hwr h0 hsw hr c1 hp).1,
          List.cons_append]
        exact List.perm_middle.trans (List.Perm.cons _ ih')
      · by_cases c2 : p.pos.at d ≥ (D.hi r).at d
        · rw [if_neg (by simp [c2]), if_neg (by simp [c1]), if_pos (by simp only [c1, c2, decide_false, decide_true]; rfl), List.map_cons,
            (go_right h hs hwr h0 hsw hr c2 hp).1, ← List.append_assoc]
          refine List.perm_middle.trans (List.Perm.cons _ ?_)
          rw [List.append_assoc]; exact ih'
        · rw [if_pos (by simp only [c1, c2, decide_false]; rfl), if_neg (by simp [c1]), if_neg (by simp only [c1, c2, decide_false]; simp), List.cons_append]
          have g := range_global h hw hr (d := d) (p := p) ⟨not_lt.1 c1, not_le.1 c2⟩
          rw [rewrapAt_id g.1 g.2]
          exact List.Perm.cons _ ih'
  exact e1 l hc

theorem migrateStep_moving (h : Tiling D cut w) (hs : Sharp D) (hwr : WrapOk D cut wr) (h0 : 0 ≤ s)
    {d : Axis} (hsw : s + 1 / 2 ^ 53 * max |D.gMin.at d| |D.gMax.at d| ≤ w) {todo : List Axis} (hd : d ∉ todo) {m : Migration}
    (hm : Moving D cut s (d :: todo) m) :
    Moving D cut s todo (D.migrateStep wr m d) ∧ ((D.migrateStep wr m d).all D).Perm ((m.all D).map (rewrapAt D wr d)) := by
  have hM : 0 ≤ 1 / 2 ^ 53 * max |D.gMin.at d| |D.gMax.at d| := by positivity
  have hw : 0 ≤ w := by linarith
  have hadd : ∀ l : List (V3 Nat), (∀ r ∈ l, IsRank D r) → (l.flatMap m.added).map (rewrapAt D wr d) = l.flatMap m.added := by
    intro l hl
    refine (List.map_congr_left fun p hp => ?_).trans (List.map_id _)
    obtain ⟨r, hr, hp⟩ := List.mem_flatMap.1 hp
    have := box_in_global h hw (hl r hr) (hm.home r (hl r hr) p hp) d
    exact rewrapAt_id this.1 this.2
  by_cases hskip : D.boundary.at d ≠ .periodic ∧ D.dec.at d = 1
  · have hsk : ∀ r, IsRank D r → D.skip d r = true := fun r hr => by rw [skip_iff hs hr]; simp [hskip.1, hskip.2]
    have ea : ∀ r, IsRank D r → (D.migrateStep wr m d).added r = m.added r := fun r hr => by
      show (if D.skip d r then _ else _) = _; rw [if_pos (hsk r hr)]
    have ee : ∀ r, IsRank D r → (D.migrateStep wr m d).em r = m.em r := fun r hr => by
      show (if D.skip d r then _ else _) = _; rw [if_pos (hsk r hr)]
    have hin : ∀ r, IsRank D r → ∀ p ∈ m.em r, CoordInRange D d r p := by
      intro r hr p hp
      have g := hm.global r hr p hp d List.mem_cons_self hskip.1
      have hrd := isRank_iff.1 hr d
      unfold CoordInRange
      rw [h.lo _ hr, h.hi _ hr, show r.at d = 0 by omega]
      have hl := h.last d
      rw [hskip.2] at hl
      rw [h.first, hl]; exact g
    refine ⟨⟨?_, ?_, ?_, ?_, ?_⟩, ?_⟩
    · intro r hr; rw [ea r hr]; exact hm.home r hr
    · intro r hr p hp e he
      rw [ee r hr] at hp
      by_cases hed : e = d
      · rw [hed]; exact hin r hr p hp
      · exact hm.done r hr p hp e (by simp [hed, he])
    · intro r hr p hp
      rw [ee r hr] at hp
      obtain ⟨e, he, hne⟩ := hm.away r hr p hp
      rcases List.mem_cons.1 he with rfl | he
      · exact absurd (hin r hr p hp) hne
      · exact ⟨e, he, hne⟩
    · intro r hr p hp e he
      rw [ee r hr] at hp
      exact hm.close r hr p hp e (List.mem_cons_of_mem _ he)
    · intro r hr p hp e he
      rw [ee r hr] at hp
      exact hm.global r hr p hp e (List.mem_cons_of_mem _ he)
    · unfold Migration.all
      rw [List.map_append, hadd _ (fun r hr => mem_ranks.1 hr)]
      have e1 : (ranks D.dec).flatMap (D.migrateStep wr m d).added = (ranks D.dec).flatMap m.added :=
        List.flatMap_congr fun r hr => ea r (mem_ranks.1 hr)
      have e2 : (ranks D.dec).flatMap (D.migrateStep wr m d).em = (ranks D.dec).flatMap m.em :=
        List.flatMap_congr fun r hr => ee r (mem_ranks.1 hr)
      rw [e1, e2]
      refine List.Perm.append_left _ (List.Perm.of_eq ?_)
      symm
      refine (List.map_congr_left fun p hp => ?_).trans (List.map_id _)
      obtain ⟨r, hr, hp⟩ := List.mem_flatMap.1 hp
      have := range_global h hw (mem_ranks.1 hr) (hin r (mem_ranks.1 hr) p hp)
      exact rewrapAt_id this.1 this.2
  · have hsk : ∀ r, IsRank D r → D.skip d r = false := fun r hr => by rw [skip_iff hs hr]; simp only [hskip, decide_false]
    set recv := D.exchange d (D.migLeft wr d m.em) (D.migRight wr d m.em) with hrecv
    have ea : ∀ r, IsRank D r → (D.migrateStep wr m d).added r = m.added r ++ (recv r).filter fun p => inBoxB p.pos (D.lo r) (D.hi r) :=
      fun r hr => by show (if D.skip d r then _ else _) = _; rw [hsk r hr]; rfl
    have ee : ∀ r, IsRank D r → (D.migrateStep wr m d).em r = D.migStay d m.em r ++ (recv r).filter fun p => !inBoxB p.pos (D.lo r) (D.hi r) :=
      fun r hr => by show (if D.skip d r then _ else _) = _; rw [hsk r hr]; rfl
    have hclose : ∀ r, IsRank D r → ∀ p ∈ m.em r, NotFar D cut s r d (p.pos.at d) :=
      fun r hr p hp => hm.close r hr p hp d List.mem_cons_self
    have hstay : ∀ r p, p ∈ D.migStay d m.em r → p ∈ m.em r ∧ CoordInRange D d r p := by
      intro r p hp
      unfold RGD.migStay at hp
      rw [List.mem_filter, Bool.and_eq_true, Bool.not_eq_true', Bool.not_eq_true', decide_eq_false_iff_not, decide_eq_false_iff_not] at hp
      exact ⟨hp.1, not_lt.1 hp.2.1, not_le.1 hp.2.2⟩
    have hrv : ∀ r, IsRank D r → ∀ q ∈ recv r, _ := fun r hr q hq => recv_mem h hs hwr h0 hsw hclose hr hq
    refine ⟨⟨?_, ?_, ?_, ?_, ?_⟩, ?_⟩
    · intro r hr p hp
      rw [ea r hr, List.mem_append] at hp
      rcases hp with hp | hp
      · exact hm.home r hr p hp
      · exact inBox_iff_at.2 (inBoxB_at.1 (List.mem_filter.1 hp).2)
    · intro r hr p hp e he
      rw [ee r hr, List.mem_append] at hp
      rcases hp with hp | hp
      · obtain ⟨a, b⟩ := hstay r p hp
        by_cases hed : e = d
        · rw [hed]; exact b
        · exact hm.done r hr p a e (by simp [hed, he])
      · obtain ⟨t, ht, hidx, hbox, p', hp', rfl, hin⟩ := hrv r hr p (List.mem_filter.1 hp).1
        by_cases hed : e = d
        · rw [hed]; exact hin
        · have := hm.done t ht p' hp' e (by simp [hed, he])
          unfold CoordInRange at this ⊢
          rw [rewrapAt_ne _ _ hed, ← (hbox e hed).1, ← (hbox e hed).2]; exact this
    · intro r hr p hp
      rw [ee r hr, List.mem_append] at hp
      rcases hp with hp | hp
      · obtain ⟨a, b⟩ := hstay r p hp
        obtain ⟨e, he, hne⟩ := hm.away r hr p a
        rcases List.mem_cons.1 he with rfl | he
        · exact absurd b hne
        · exact ⟨e, he, hne⟩
      · obtain ⟨hp1, hp2⟩ := List.mem_filter.1 hp
        obtain ⟨t, ht, hidx, hbox, p', hp', rfl, hin⟩ := hrv r hr p hp1
        by_contra hcon
        have hall : ∀ e, CoordInRange D e r (rewrapAt D wr d p') := by
          intro e
          by_cases hed : e = d
          · rw [hed]; exact hin
          · by_cases het : e ∈ todo
            · by_contra hne; exact hcon ⟨e, het, hne⟩
            · have := hm.done t ht p' hp' e (by simp [hed, het])
              unfold CoordInRange at this ⊢
              rw [rewrapAt_ne _ _ hed, ← (hbox e hed).1, ← (hbox e hed).2]; exact this
        rw [inBoxB_at.2 hall] at hp2
        cases hp2
    · intro r hr p hp e he
      have hed : e ≠ d := fun h => hd (h ▸ he)
      rw [ee r hr, List.mem_append] at hp
      rcases hp with hp | hp
      · exact hm.close r hr p (hstay r p hp).1 e (List.mem_cons_of_mem _ he)
      · obtain ⟨t, ht, hidx, hbox, p', hp', rfl, hin⟩ := hrv r hr p (List.mem_filter.1 hp).1
        have := hm.close t ht p' hp' e (List.mem_cons_of_mem _ he)
        unfold NotFar at this ⊢
        rw [rewrapAt_ne _ _ hed, ← hidx e hed]; exact this
    · intro r hr p hp e he hb
      have hed : e ≠ d := fun h => hd (h ▸ he)
      rw [ee r hr, List.mem_append] at hp
      rcases hp with hp | hp
      · exact hm.global r hr p (hstay r p hp).1 e (List.mem_cons_of_mem _ he) hb
      · obtain ⟨t, ht, hidx, hbox, p', hp', rfl, hin⟩ := hrv r hr p (List.mem_filter.1 hp).1
        have := hm.global t ht p' hp' e (List.mem_cons_of_mem _ he) hb
        rw [rewrapAt_ne _ _ hed]; exact this
    · unfold Migration.all
      rw [List.map_append, hadd _ (fun r hr => mem_ranks.1 hr)]
      have e1 : (ranks D.dec).flatMap (D.migrateStep wr m d).added =
          (ranks D.dec).flatMap fun r => m.added r ++ (recv r).filter fun p => inBoxB p.pos (D.lo r) (D.hi r) :=
        List.flatMap_congr fun r hr => ea r (mem_ranks.1 hr)
      have e2 : (ranks D.dec).flatMap (D.migrateStep wr m d).em =
          (ranks D.dec).flatMap fun r => D.migStay d m.em r ++ (recv r).filter fun p => !inBoxB p.pos (D.lo r) (D.hi r) :=
        List.flatMap_congr fun r hr => ee r (mem_ranks.1 hr)
      rw [e1, e2]
      refine (List.Perm.append (flatMap_append_distrib _ _ _) (flatMap_append_distrib _ _ _)).trans ?_
      rw [List.append_assoc]
      refine List.Perm.append_left _ ?_
      set A := (ranks D.dec).flatMap fun r => (recv r).filter fun p => inBoxB p.pos (D.lo r) (D.hi r) with hA
      set B := (ranks D.dec).flatMap fun r => (recv r).filter fun p => !inBoxB p.pos (D.lo r) (D.hi r) with hB
      have hAB : (A ++ B).Perm ((ranks D.dec).flatMap fun r => D.migLeft wr d m.em r ++ D.migRight wr d m.em r) := by
        refine (flatMap_append_distrib _ _ _).symm.trans ?_
        refine (flatMap_perm_pointwise fun r _ => List.filter_append_perm _ (recv r)).trans ?_
        exact exchange_all d _ _
      have step : (A ++ ((ranks D.dec).flatMap (D.migStay d m.em) ++ B)).Perm
          ((ranks D.dec).flatMap (D.migStay d m.em) ++ (A ++ B)) := by
        rw [← List.append_assoc, ← List.append_assoc]
        exact List.Perm.append_right _ List.perm_append_comm
      refine step.trans ((List.Perm.append_left _ hAB).trans ?_)
      refine (flatMap_append_distrib _ _ _).symm.trans ?_
      rw [List.map_flatMap]
      exact flatMap_perm_pointwise fun r hr => parts_perm h hs hwr h0 hsw hclose (mem_ranks.1 hr)

/-- All three rounds. -/
theorem migrate_spec (h : Tiling D cut w) (hs : Sharp D) (hwr : WrapOk D cut wr) (h0 : 0 ≤ s)
    (hsw : ∀ d : Axis, s + 1 / 2 ^ 53 * max |D.gMin.at d| |D.gMax.at d| ≤ w) {em : V3 Nat → List Particle} (hem : Emigrants D cut s em) :
    (∀ r, IsRank D r → ∀ p ∈ (D.migrate wr em).added r, InBox p.pos (D.lo r) (D.hi r)) ∧ (∀ r, IsRank D r → (D.migrate wr em).em r = []) ∧
      ((ranks D.dec).flatMap (D.migrate wr em).added).Perm (((ranks D.dec).flatMap em).map (rewrap D wr)) := by
  have hall : ∀ d : Axis, d ∈ [Axis.x, .y, .z] := by intro d; cases d <;> decide
  have m0 : Moving D cut s [.x, .y, .z] { added := fun _ => [], em := em } := by
    refine ⟨?_, ?_, ?_, ?_, ?_⟩
    · intro r _ p hp; cases hp
    · intro r _ p _ d hd; exact absurd (hall d) hd
    · intro r hr p hp
      by_contra hcon
      refine hem.outside r hr p hp (inBox_iff_at.2 fun d => ?_)
      by_contra hne
      exact hcon ⟨d, hall d, hne⟩
    · intro r hr p hp d _; exact hem.close r hr p hp d
    · intro r hr p hp d _; exact hem.global r hr p hp d
  obtain ⟨m1, p1⟩ := migrateStep_moving h hs hwr h0 (hsw .x) (by decide) m0
  obtain ⟨m2, p2⟩ := migrateStep_moving h hs hwr h0 (hsw .y) (by decide) m1
  obtain ⟨m3, p3⟩ := migrateStep_moving h hs hwr h0 (hsw .z) (by decide) m2
  have hemp : ∀ r, IsRank D r → (D.migrate wr em).em r = [] := by
    intro r hr
    refine List.eq_nil_iff_forall_not_mem.2 fun p hp => ?_
    obtain ⟨d, hd, -⟩ := m3.away r hr p hp
    cases hd
  refine ⟨m3.home, hemp, ?_⟩
  have hp := p3.trans ((p2.trans (p1.map _)).map _)
  have e : (ranks D.dec).flatMap (D.migrate wr em).em = [] := by
    rw [List.flatMap_eq_nil_iff]; exact fun r hr => hemp r (mem_ranks.1 hr)
  have hl : ((ranks D.dec).flatMap (D.migrate wr em).added) = (D.migrate wr em).all D := by
    unfold Migration.all; rw [e, List.append_nil]
  rw [hl]
  refine hp.trans (List.Perm.of_eq ?_)
  unfold Migration.all
  have e0 : (ranks D.dec).flatMap (fun _ : V3 Nat => ([] : List Particle)) = [] := by
    rw [List.flatMap_eq_nil_iff]; exact fun _ _ => rfl
  rw [e0, List.nil_append, List.map_map, List.map_map]
  rfl

end Verif
