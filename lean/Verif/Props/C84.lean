import Verif.Props.C83
/-!
# C84 — the halo exchange of md-flexible delivers every periodic image near a rank exactly once

After `exchangeHaloParticles` a rank holds its own particles and, as halo particles, exactly the periodic images of everybody's particles that
lie within the interaction length of its local box, each exactly once — so for every owned particle all partners within the cutoff are present.

This needs: the global box is not too far from the origin (compared with the interaction length), the dimensions y and z are
periodic or not divided, and the local boxes are two interaction lengths wide in y and z. Without these the property fails:
`C84_violated_spurious_ghost`, `C84_violated_missing_partner`, `C84_violated_far_from_origin`.
-/
namespace Verif
open Spec

/-- What the halo exchange needs. -/
structure ExchangeOk (D : RGD) (cut : Axis → Nat → Rat) : Prop where
  tiling : Tiling D cut (reach D)
  cutoff : 0 < D.cutoff
  skin : 0 ≤ D.skin
  near : ∀ d : Axis, max |D.gMin.at d| |D.gMax.at d| < 1000000000 * reach D
  per : ∀ d : Axis, d ≠ .x → D.boundary.at d = .periodic ∨ D.dec.at d = 1
  wide : ∀ d : Axis, d ≠ .x → ∀ s, IsRank D s → 2 * reach D ≤ (D.hi s).at d - (D.lo s).at d

variable {D : RGD} {cut : Axis → Nat → Rat} {own : V3 Nat → List Particle}

theorem ExchangeOk.reach_pos (h : ExchangeOk D cut) : 0 < reach D := by have := h.cutoff; have := h.skin; unfold reach; linarith

theorem image_at (p : Particle) (k : V3 Int) (d : Axis) : (image D p k).pos.at d = p.pos.at d + (k.at d : Rat) * (D.gMax.at d - D.gMin.at d) := by
  cases d <;> rfl

theorem mem_shifts {b : BoundaryType} {k : Int} : k ∈ shifts b ↔ (b = .periodic ∧ (k = -1 ∨ k = 1)) ∨ k = 0 := by
  cases b <;> simp [shifts]; omega

theorem shifts_nodup (b : BoundaryType) : (shifts b).Nodup := by cases b <;> decide

theorem mem_imagesOf {p q : Particle} : q ∈ imagesOf D p ↔ ∃ k : V3 Int, (∀ d : Axis, k.at d ∈ shifts (D.boundary.at d)) ∧ q = image D p k := by
  unfold imagesOf
  simp only [List.mem_flatMap, List.mem_map]
  constructor
  · rintro ⟨i, hi, j, hj, k, hk, rfl⟩
    exact ⟨⟨i, j, k⟩, fun d => by cases d <;> assumption, rfl⟩
  · rintro ⟨⟨i, j, k⟩, h, rfl⟩
    exact ⟨i, h .x, j, h .y, k, h .z, rfl⟩

/-- An image inside the global box is the particle itself. -/
theorem image_inside {p : Particle} (hp : InBox p.pos D.gMin D.gMax) {k : V3 Int} (hq : InBox (image D p k).pos D.gMin D.gMax) (d : Axis) :
    k.at d = 0 := by
  have a := inBox_iff_at.1 hp d
  have b := inBox_iff_at.1 hq d
  rw [image_at] at b
  have hL : 0 < D.gMax.at d - D.gMin.at d := by linarith [a.1, a.2]
  have h1 : ((k.at d : Int) : Rat) < 1 := by
    by_contra hc
    have := mul_le_mul_of_nonneg_right (not_lt.1 hc) hL.le
    linarith
  have h2 : (-1 : Rat) < ((k.at d : Int) : Rat) := by
    by_contra hc
    have := mul_le_mul_of_nonneg_right (not_lt.1 hc) hL.le
    linarith
  have h1' : k.at d < 1 := by exact_mod_cast h1
  have h2' : -1 < k.at d := by exact_mod_cast h2
  omega

theorem image_zero (p : Particle) : image D p ⟨0, 0, 0⟩ = p := by
  obtain ⟨i, ⟨x, y, z⟩, o⟩ := p
  simp [image]

/-- Among the images of a particle of the global box only the particle itself can be in a part of the global box. -/
theorem images_inside {p : Particle} (hp : InBox p.pos D.gMin D.gMax) (f : Particle → Bool)
    (hf : ∀ q, f q = true → InBox q.pos D.gMin D.gMax) : (imagesOf D p).filter f = if f p then [p] else [] := by
  have hk : ∀ k : V3 Int, f (image D p k) = true → ∀ d : Axis, k.at d = 0 := fun k h => image_inside hp (hf _ h)
  have h0 : ∀ b, (0 : Int) ∈ shifts b := fun b => mem_shifts.2 (Or.inr rfl)
  unfold imagesOf
  rw [List.filter_flatMap, flatMap_only (shifts_nodup _) (h0 _) (by
    intro i _ hi
    refine List.filter_eq_nil_iff.2 fun q hq hfq => ?_
    simp only [List.mem_flatMap, List.mem_map] at hq
    obtain ⟨j, _, k, _, rfl⟩ := hq
    exact hi (hk _ hfq .x)), List.filter_flatMap, flatMap_only (shifts_nodup _) (h0 _) (by
    intro j _ hj
    refine List.filter_eq_nil_iff.2 fun q hq hfq => ?_
    simp only [List.mem_map] at hq
    obtain ⟨k, _, rfl⟩ := hq
    exact hj (hk _ hfq .y)), ← List.flatMap_pure_eq_map, List.filter_flatMap, flatMap_only (shifts_nodup _) (h0 _) (by
    intro k _ hk'
    refine List.filter_eq_nil_iff.2 fun q hq hfq => ?_
    have hq' : q = image D p ⟨0, 0, k⟩ := List.mem_singleton.1 hq
    subst hq'
    exact hk' (hk _ hfq .z))]
  show [image D p ⟨0, 0, 0⟩].filter f = _
  rw [image_zero, List.filter_cons]
  rfl

/-- The whole picture of a rank: its own particles and its halo particles are together exactly the images within reach. -/
theorem C84_world_partial (h : ExchangeOk D cut) (hown : Housed D own) {r : V3 Nat} (hr : IsRank D r) :
    (own r ++ D.exchangeHalo own r).Perm
      ((((ranks D.dec).flatMap own).flatMap (imagesOf D)).filter fun q => decide (InReach D r q.pos)) := by
  have hs := sharp_of_near h.tiling h.reach_pos.le h.near
  refine (exchangeHalo_perm h.tiling h.reach_pos h.skin hs hown h.per h.wide hr).trans (List.Perm.of_eq ?_)
  rw [List.flatMap_assoc, List.flatMap_assoc, List.filter_flatMap]
  show List.flatMap _ (everyone D own) = List.flatMap _ (everyone D own)
  refine congrArg (fun f => List.flatMap f (everyone D own)) (funext fun p => ?_)
  rw [← List.flatMap_assoc]
  exact imgs_eq_images r p

/-- The halo particles of a rank: exactly the images within reach that are not in its own box, each exactly once. -/
theorem C84_halo_partial (h : ExchangeOk D cut) (hown : Housed D own) {r : V3 Nat} (hr : IsRank D r) :
    (D.exchangeHalo own r).Perm
      ((((ranks D.dec).flatMap own).flatMap (imagesOf D)).filter fun q =>
        decide (InReach D r q.pos ∧ ¬ InBox q.pos (D.lo r) (D.hi r))) := by
  have hw := C84_world_partial h hown hr
  have hwl := h.reach_pos.le
  have hinr : ∀ q : Particle, InBox q.pos (D.lo r) (D.hi r) → InReach D r q.pos := by
    intro q hq
    obtain ⟨⟨a, b⟩, ⟨c, d⟩, ⟨e, f⟩⟩ := hq
    have := h.reach_pos
    exact ⟨⟨by dsimp only; linarith, by dsimp only; linarith⟩, ⟨by dsimp only; linarith, by dsimp only; linarith⟩,
      ⟨by dsimp only; linarith, by dsimp only; linarith⟩⟩
  set P := (ranks D.dec).flatMap own with hP
  have hPg : ∀ p ∈ P, InBox p.pos D.gMin D.gMax := fun p hp => inBox_iff_at.2 fun d => everyone_global h.tiling hwl hown hp d
  have hin : ((P.flatMap (imagesOf D)).filter fun q => decide (InReach D r q.pos)).filter (fun q => decide (InBox q.pos (D.lo r) (D.hi r))) = own r := by
    rw [List.filter_filter]
    have e1 : (fun q : Particle => decide (InBox q.pos (D.lo r) (D.hi r)) && decide (InReach D r q.pos)) =
        fun q => decide (InBox q.pos (D.lo r) (D.hi r)) := by
      funext q
      by_cases hq : InBox q.pos (D.lo r) (D.hi r)
      · simp [hq, hinr q hq]
      · simp [hq]
    rw [e1, List.filter_flatMap]
    have e2 : ∀ l : List Particle, (∀ p ∈ l, InBox p.pos D.gMin D.gMax) →
        (l.flatMap fun p => (imagesOf D p).filter fun q => decide (InBox q.pos (D.lo r) (D.hi r))) =
          l.filter fun q => decide (InBox q.pos (D.lo r) (D.hi r)) := by
      intro l
      induction l with
      | nil => intro _; rfl
      | cons p l ih =>
        intro hl
        rw [List.flatMap_cons, ih (fun q hq => hl q (List.mem_cons_of_mem _ hq)), images_inside (hl p List.mem_cons_self) _
          (fun q hq => inBox_iff_at.2 fun d => box_in_global h.tiling hwl hr (of_decide_eq_true hq) d), List.filter_cons]
        split <;> rfl
    rw [e2 P hPg, hP, List.filter_flatMap, flatMap_only (ranks_nodup D.dec) (mem_ranks.2 hr) (by
      intro s hs hne
      refine List.filter_eq_nil_iff.2 fun q hq hq' => hne ?_
      exact box_unique h.tiling hwl (mem_ranks.1 hs) hr (hown s (mem_ranks.1 hs) q hq) (of_decide_eq_true hq'))]
    exact List.filter_eq_self.2 fun q hq => decide_eq_true (hown r hr q hq)
  have hsplit := List.filter_append_perm (fun q : Particle => decide (InBox q.pos (D.lo r) (D.hi r)))
    ((P.flatMap (imagesOf D)).filter fun q => decide (InReach D r q.pos))
  rw [hin] at hsplit
  have := (List.perm_append_left_iff _).1 (hw.trans hsplit.symm)
  refine this.trans (List.Perm.of_eq ?_)
  rw [List.filter_filter]
  refine congrArg (fun f => List.filter f _) (funext fun q => ?_)
  by_cases h1 : InBox q.pos (D.lo r) (D.hi r) <;> by_cases h2 : InReach D r q.pos <;> simp [h1, h2]

/-- A coordinate differs by at most the distance. -/
theorem coord_le {p q : V3 Rat} {w : Rat} (hw : 0 ≤ w) (h : distSq p q ≤ w ^ 2) (d : Axis) : |p.at d - q.at d| ≤ w := by
  refine abs_le_of_sq_le_sq ?_ hw
  refine le_trans ?_ h
  unfold distSq
  cases d <;> simp only [V3.at] <;> nlinarith [sq_nonneg (p.x - q.x), sq_nonneg (p.y - q.y), sq_nonneg (p.z - q.z)]

/-- Everything an owned particle interacts with is present: however many box lengths away the partner's image is taken. -/
theorem C84_partners_present_partial (h : ExchangeOk D cut) (hown : Housed D own) {r s : V3 Nat} (hr : IsRank D r) (hs : IsRank D s)
    {a b : Particle} (ha : a ∈ own r) (hb : b ∈ own s) (k : V3 Int) (hk : ∀ d : Axis, D.boundary.at d ≠ .periodic → k.at d = 0)
    (hd : distSq a.pos (image D b k).pos ≤ reach D ^ 2) : image D b k ∈ own r ++ D.exchangeHalo own r := by
  have hw := h.reach_pos
  rw [(C84_world_partial h hown hr).mem_iff, List.mem_filter, List.mem_flatMap]
  have hda := fun d : Axis => coord_le hw.le hd d
  have hra := inBox_iff_at.1 (hown r hr a ha)
  refine ⟨⟨b, List.mem_flatMap.2 ⟨s, mem_ranks.2 hs, hb⟩, mem_imagesOf.2 ⟨k, fun d => ?_, rfl⟩⟩, decide_eq_true ?_⟩
  · rw [mem_shifts]
    by_cases hp : D.boundary.at d = .periodic
    · have h1 := box_in_global h.tiling hw.le hr (hown r hr a ha) d
      have h2 := box_in_global h.tiling hw.le hs (hown s hs b hb) d
      have h3 := abs_le.1 (hda d)
      rw [image_at] at h3
      have hL : reach D ≤ D.gMax.at d - D.gMin.at d := by
        have c0 := cut_mono h.tiling hw.le (d := d) (Nat.zero_le (r.at d)) (isRank_iff.1 hr d).le
        have c1 := cut_mono h.tiling hw.le (d := d) (Nat.succ_le_of_lt (isRank_iff.1 hr d)) le_rfl
        have c2 := h.tiling.wide d (r.at d) (isRank_iff.1 hr d)
        rw [h.tiling.first] at c0
        rw [h.tiling.last, Nat.succ_eq_add_one] at c1
        linarith
      have hL0 : 0 < D.gMax.at d - D.gMin.at d := lt_of_lt_of_le hw hL
      have u1 : ((k.at d : Int) : Rat) < 2 := by
        by_contra hc
        have := mul_le_mul_of_nonneg_right (not_lt.1 hc) hL0.le
        linarith [h3.1]
      have u2 : (-2 : Rat) < ((k.at d : Int) : Rat) := by
        by_contra hc
        have := mul_le_mul_of_nonneg_right (not_lt.1 hc) hL0.le
        linarith [h3.2]
      have u1' : k.at d < 2 := by exact_mod_cast u1
      have u2' : -2 < k.at d := by exact_mod_cast u2
      have : k.at d = 0 ∨ k.at d = 1 ∨ k.at d = -1 := by omega
      rcases this with e | e | e
      · exact Or.inr e
      · exact Or.inl ⟨hp, Or.inr e⟩
      · exact Or.inl ⟨hp, Or.inl e⟩
    · exact Or.inr (hk d hp)
  · refine inBox_iff_at.2 fun d => ?_
    have h3 := abs_le.1 (hda d)
    have h4 := hra d
    cases d <;> simp only [V3.at] at * <;> constructor <;> linarith [h3.1, h3.2, h4.1, h4.2]

/-! ### Non-vacuity -/

private def exHaloD : RGD := RGD.init ⟨0, 0, 0⟩ ⟨12, 6, 6⟩ ⟨3, 2, 1⟩ ⟨.none, .periodic, .periodic⟩ 1 (1/5)

example : ExchangeOk exHaloD (fun d i => i * (((⟨12, 6, 6⟩ : V3 Rat).at d - (⟨0, 0, 0⟩ : V3 Rat).at d) / (⟨3, 2, 1⟩ : V3 Nat).at d) +
    (⟨0, 0, 0⟩ : V3 Rat).at d) where
  tiling := C83_local_boxes_tile _ _ _ _ _ _ _ (by intro d; cases d <;> decide) (by intro d; cases d <;> norm_num [V3.at, reach, RGD.init, exHaloD])
  cutoff := by norm_num [exHaloD, RGD.init]
  skin := by norm_num [exHaloD, RGD.init]
  near := by intro d; cases d <;> norm_num [exHaloD, RGD.init, V3.at, reach, abs_of_pos]
  per := by intro d hd; cases d <;> simp [exHaloD, RGD.init, V3.at] at *
  wide := by
    intro d hd s _
    cases d
    · exact absurd rfl hd
    · simp only [exHaloD, RGD.init, rgLocalBox, V3.at, reach]; push_cast; ring_nf; norm_num
    · simp only [exHaloD, RGD.init, rgLocalBox, V3.at, reach]; push_cast; ring_nf; norm_num

private def exHaloOwn : V3 Nat → List Particle := fun r => if r = ⟨0, 0, 0⟩ then [⟨7, ⟨7/2, 1/2, 1/2⟩, .owned⟩] else []

/-- The particle near a corner of its domain shows up in the neighbouring domain, with its periodic images. -/
example : (exHaloD.exchangeHalo exHaloOwn ⟨1, 1, 0⟩).map (·.pos) = [⟨7/2, 13/2, 1/2⟩, ⟨7/2, 13/2, 13/2⟩] := by decide +kernel

/-! ### Where the property fails -/

private def ghostD : RGD := RGD.init ⟨0, 0, 0⟩ ⟨8, 8, 8⟩ ⟨2, 2, 1⟩ ⟨.none, .none, .none⟩ 1 0
private def ghostOwn : V3 Nat → List Particle := fun r => if r = ⟨1, 0, 0⟩ then [⟨7, ⟨17/4, 1/2, 4⟩, .owned⟩] else []

/-- Without periodic boundaries, with two domains in x and two in y: a rank receives a ghost that is no particle of the system. A particle of
rank (0,1,0) at the upper end of the box would interact with it. -/
theorem C84_violated_spurious_ghost : ∃ (D : RGD) (own : V3 Nat → List Particle) (r : V3 Nat) (q : Particle),
    (∀ d : Axis, D.boundary.at d = .none) ∧ (∃ cut, Tiling D cut (2 * reach D)) ∧ Housed D own ∧ IsRank D r ∧
      q ∈ D.exchangeHalo own r ∧ (∀ p ∈ (ranks D.dec).flatMap own, q ∉ imagesOf D p) ∧
      ∃ a, InBox a (D.lo r) (D.hi r) ∧ distSq a q.pos < D.cutoff ^ 2 := by
  refine ⟨ghostD, ghostOwn, ⟨0, 1, 0⟩, ⟨7, ⟨17/4, 17/2, 4⟩, .owned⟩, fun d => by cases d <;> rfl, ⟨_, C83_local_boxes_tile _ _ _ _ _ _ _
    (by intro d; cases d <;> decide) (by intro d; cases d <;> norm_num [V3.at, reach, RGD.init, ghostD])⟩, ?_, by decide, by decide +kernel,
    by decide +kernel, ⟨7/2 + 2/5, 31/4, 4⟩, by decide +kernel, by decide +kernel⟩
  intro r _ p hp
  unfold ghostOwn at hp
  split at hp
  · next e => subst e; rw [List.mem_singleton] at hp; subst hp; decide +kernel
  · cases hp

private def narrowD : RGD := RGD.init ⟨0, 0, 0⟩ ⟨6, 6, 6⟩ ⟨1, 2, 1⟩ ⟨.periodic, .periodic, .periodic⟩ 2 0
private def narrowA : Particle := ⟨7, ⟨1, 3/2, 1⟩, .owned⟩
private def narrowB : Particle := ⟨8, ⟨59/10, 3, 1⟩, .owned⟩
private def narrowOwn : V3 Nat → List Particle := fun r =>
  if r = ⟨0, 0, 0⟩ then [narrowA] else if r = ⟨0, 1, 0⟩ then [narrowB] else []

/-- With periodic boundaries and domains between one and two interaction lengths wide: an owned particle misses a partner within the
cutoff. -/
theorem C84_violated_missing_partner : ∃ (D : RGD) (own : V3 Nat → List Particle) (r s : V3 Nat) (a b : Particle) (k : V3 Int),
    (∀ d : Axis, D.boundary.at d = .periodic) ∧ (∃ cut, Tiling D cut (3 / 2 * reach D)) ∧ Housed D own ∧ IsRank D r ∧ IsRank D s ∧ a ∈ own r ∧ b ∈ own s ∧
      distSq a.pos (image D b k).pos < D.cutoff ^ 2 ∧ image D b k ∉ own r ++ D.exchangeHalo own r := by
  refine ⟨narrowD, narrowOwn, ⟨0, 1, 0⟩, ⟨0, 0, 0⟩, narrowB, narrowA, ⟨1, 0, 0⟩, fun d => by cases d <;> rfl, ⟨_, C83_local_boxes_tile _ _ _ _ _ _ _
    (by intro d; cases d <;> decide) (by intro d; cases d <;> norm_num [V3.at, reach, RGD.init, narrowD])⟩, ?_, by decide, by decide,
    by decide +kernel, by decide +kernel, by decide +kernel, by decide +kernel⟩
  intro r _ p hp
  unfold narrowOwn at hp
  split at hp
  · next e => subst e; rw [List.mem_singleton] at hp; subst hp; decide +kernel
  · split at hp
    · next e => subst e; rw [List.mem_singleton] at hp; subst hp; decide +kernel
    · cases hp

private def farD : RGD := RGD.init ⟨10000000000, 0, 0⟩ ⟨10000000004, 4, 4⟩ ⟨2, 1, 1⟩ ⟨.none, .none, .none⟩ 1 0
private def farA : Particle := ⟨7, ⟨10000000000 + 19/10, 2, 2⟩, .owned⟩
private def farB : Particle := ⟨8, ⟨10000000000 + 21/10, 2, 2⟩, .owned⟩
private def farOwn : V3 Nat → List Particle := fun r =>
  if r = ⟨0, 0, 0⟩ then [farA] else if r = ⟨1, 0, 0⟩ then [farB] else []

/-- With a box far away from the origin every rank takes itself to be at the boundary of the global box and nothing is exchanged at all. -/
theorem C84_violated_far_from_origin : ∃ (D : RGD) (own : V3 Nat → List Particle) (r s : V3 Nat) (a b : Particle),
    (∃ cut, Tiling D cut (2 * reach D)) ∧ Housed D own ∧ IsRank D r ∧ IsRank D s ∧ a ∈ own r ∧ b ∈ own s ∧
      distSq a.pos b.pos < D.cutoff ^ 2 ∧ b ∉ own r ++ D.exchangeHalo own r := by
  refine ⟨farD, farOwn, ⟨0, 0, 0⟩, ⟨1, 0, 0⟩, farA, farB, ⟨_, C83_local_boxes_tile _ _ _ _ _ _ _
    (by intro d; cases d <;> decide) (by intro d; cases d <;> norm_num [V3.at, reach, RGD.init, farD])⟩, ?_, by decide, by decide,
    by decide +kernel, by decide +kernel, by decide +kernel, by decide +kernel⟩
  intro r _ p hp
  unfold farOwn at hp
  split at hp
  · next e => subst e; rw [List.mem_singleton] at hp; subst hp; decide +kernel
  · split at hp
    · next e => subst e; rw [List.mem_singleton] at hp; subst hp; decide +kernel
    · cases hp

end Verif
