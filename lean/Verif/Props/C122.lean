import Verif.Lemmas.SPHLeaving
/-!
# C122 — the exchange of particles in the examples for smoothed particle hydrodynamics

`updateHaloParticles` gives each rank exactly the periodic images of everybody's particles that lie within the cutoff around its box, each once, so that
every partner of an owned particle is present. `periodicBoundaryUpdate` brings each particle that left a rank, at its place in the periodic box, to the rank
it belongs to: none is lost, none is doubled, all are accepted there. The initial particles are divided among the ranks. The example with one rank does the
same.

This needs local boxes that are at least one cutoff wide and particles that leave them by no more than the cutoff. Without this it fails:
`C122_violated_fast_particle`, `C122_violated_narrow_box`.
-/
namespace Verif
open Spec

variable {G : SPHGrid} {own invalid : V3 Nat → List Particle}

/-- The halo of a rank. -/
theorem C122_halo (h : WideGrid G) (hown : AtHome G own) {r : V3 Nat} (hr : OnGrid G r) :
    (G.halo own r).Perm ((((ranks G.grid).flatMap own).flatMap (boxImages G.gMin G.gMax)).filter fun q =>
      decide (InWidened (G.lo r) (G.hi r) G.cutoff q.pos ∧ ¬ InBox q.pos (G.lo r) (G.hi r))) := by
  convert halo_perm h hown hr

theorem sph_coord_le {p q : V3 Rat} {c : Rat} (hc : 0 ≤ c) (h : (p.x - q.x) ^ 2 + (p.y - q.y) ^ 2 + (p.z - q.z) ^ 2 ≤ c ^ 2) (d : Axis) :
    |p.at d - q.at d| ≤ c := by
  refine abs_le_of_sq_le_sq ?_ hc
  cases d <;> simp only [V3.at] <;> nlinarith [sq_nonneg (p.x - q.x), sq_nonneg (p.y - q.y), sq_nonneg (p.z - q.z)]

/-- Everything that an owned particle interacts with is present, however many box lengths away the image of the partner is taken. -/
theorem C122_partners_present (h : WideGrid G) (hown : AtHome G own) {r s : V3 Nat} (hr : OnGrid G r) (hs : OnGrid G s) {a b : Particle}
    (ha : a ∈ own r) (hb : b ∈ own s) (k : V3 Int)
    (hd : (a.pos.x - (boxImage G.gMin G.gMax b k).pos.x) ^ 2 + (a.pos.y - (boxImage G.gMin G.gMax b k).pos.y) ^ 2 +
      (a.pos.z - (boxImage G.gMin G.gMax b k).pos.z) ^ 2 ≤ G.cutoff ^ 2) :
    boxImage G.gMin G.gMax b k ∈ own r ++ G.halo own r := by
  have hda := fun d : Axis => abs_le.1 (sph_coord_le h.cutoff.le hd d)
  have hra := inBox_iff_at.1 (hown r hr a ha)
  have hga := inBox_iff_at.1 (box_global h hr (hown r hr a ha))
  have hgb := inBox_iff_at.1 (box_global h hs (hown s hs b hb))
  have hcL : ∀ d : Axis, G.cutoff ≤ G.gMax.at d - G.gMin.at d := by
    intro d
    have h1 := h.wide d
    have h2 : (1 : Rat) ≤ G.grid.at d := by exact_mod_cast h.grid d
    nlinarith [h.cutoff]
  have hk : ∀ d : Axis, k.at d ∈ ([-1, 0, 1] : List Int) := by
    intro d
    have h3 := hda d
    rw [boxImage_at] at h3
    have hL := h.length d
    have hL0 : 0 < G.gMax.at d - G.gMin.at d := by linarith
    have u1 : ((k.at d : Int) : Rat) < 2 := by
      by_contra hc
      have := mul_le_mul_of_nonneg_right (not_lt.1 hc) hL0.le
      linarith [h3.1, hcL d, (hga d).1, (hga d).2, (hgb d).1, (hgb d).2]
    have u2 : (-2 : Rat) < ((k.at d : Int) : Rat) := by
      by_contra hc
      have := mul_le_mul_of_nonneg_right (not_lt.1 hc) hL0.le
      linarith [h3.2, hcL d, (hga d).1, (hga d).2, (hgb d).1, (hgb d).2]
    have u1' : k.at d < 2 := by exact_mod_cast u1
    have u2' : -2 < k.at d := by exact_mod_cast u2
    have : k.at d = -1 ∨ k.at d = 0 ∨ k.at d = 1 := by omega
    simpa using this
  rw [List.mem_append]
  by_cases hin : InBox (boxImage G.gMin G.gMax b k).pos (G.lo r) (G.hi r)
  · left
    have hg2 := inBox_iff_at.1 (box_global h hr hin)
    have hk0 : ∀ d : Axis, k.at d = 0 := by
      intro d
      have h1 := hg2 d
      rw [boxImage_at] at h1
      have h2 := hgb d
      have hL0 : 0 < G.gMax.at d - G.gMin.at d := by linarith [h.length d]
      have h3 := hk d
      simp only [List.mem_cons, List.not_mem_nil, or_false] at h3
      rcases h3 with e | e | e
      · exfalso; rw [e] at h1; push_cast at h1; linarith [h1.1, h2.2]
      · exact e
      · exfalso; rw [e] at h1; push_cast at h1; linarith [h1.2, h2.1]
    have e : boxImage G.gMin G.gMax b k = b := by
      obtain ⟨i, ⟨x, y, z⟩, o⟩ := b
      have ex := hk0 .x
      have ey := hk0 .y
      have ez := hk0 .z
      simp only [V3.at] at ex ey ez
      unfold boxImage
      simp [ex, ey, ez]
    rw [e] at hin ⊢
    rw [gridBox_unique h hr hs hin (hown s hs b hb)]
    exact hb
  · right
    rw [(C122_halo h hown hr).mem_iff, List.mem_filter, decide_eq_true_eq]
    refine ⟨List.mem_flatMap.2 ⟨b, List.mem_flatMap.2 ⟨s, mem_ranks.2 hs, hb⟩, ?_⟩, ?_, hin⟩
    · unfold boxImages
      exact List.mem_flatMap.2 ⟨k.x, hk .x, List.mem_flatMap.2 ⟨k.y, hk .y, List.mem_map.2 ⟨k.z, hk .z, rfl⟩⟩⟩
    · unfold InWidened
      refine inBox_iff_at.2 fun d => ?_
      have h3 := hda d
      have h4 := hra d
      have e1 : (⟨(G.lo r).x - G.cutoff, (G.lo r).y - G.cutoff, (G.lo r).z - G.cutoff⟩ : V3 Rat).at d = (G.lo r).at d - G.cutoff := by cases d <;> rfl
      have e2 : (⟨(G.hi r).x + G.cutoff, (G.hi r).y + G.cutoff, (G.hi r).z + G.cutoff⟩ : V3 Rat).at d = (G.hi r).at d + G.cutoff := by cases d <;> rfl
      rw [e1, e2]
      constructor
      · linarith [h3.2, h4.1]
      · linarith [h3.1, h4.2]

/-- What a rank gets in `periodicBoundaryUpdate`: of all particles that left a rank those that belong into its box. -/
theorem C122_entering (h : WideGrid G) (hinv : NearbyLeavers G invalid) (below : Rat → Rat) {r : V3 Nat} (hr : OnGrid G r) :
    (G.entering below invalid r).Perm ((((ranks G.grid).flatMap invalid).map (wrapped G.gMin G.gMax)).filter fun q =>
      decide (InBox q.pos (G.lo r) (G.hi r))) := by
  convert entering_perm h hinv below hr

/-- A list of particles in the box, divided among the ranks. -/
theorem ranks_partition (h : WideGrid G) {l : List Particle} (hl : ∀ p ∈ l, InBox p.pos G.gMin G.gMax) :
    ((ranks G.grid).flatMap fun r => l.filter fun q => decide (InBox q.pos (G.lo r) (G.hi r))).Perm l := by
  refine (flatMap_filters _ _ _ (ranks_nodup _) ?_).trans (List.Perm.of_eq ?_)
  · intro q _ a ha b hb h1 h2
    exact gridBox_unique h (mem_ranks.1 ha) (mem_ranks.1 hb) (of_decide_eq_true h1) (of_decide_eq_true h2)
  · rw [List.filter_eq_self]
    intro q hq
    obtain ⟨r, hr, hin⟩ := gridBox_exists h (hl q hq)
    exact List.any_eq_true.2 ⟨r, hr, decide_eq_true hin⟩

theorem wrapped_inBox (h : WideGrid G) (hinv : NearbyLeavers G invalid) : ∀ q ∈ ((ranks G.grid).flatMap invalid).map (wrapped G.gMin G.gMax),
    InBox q.pos G.gMin G.gMax := by
  intro q hq
  obtain ⟨p, hp, rfl⟩ := List.mem_map.1 hq
  obtain ⟨s, hs, hps⟩ := List.mem_flatMap.1 hp
  have hs' : OnGrid G s := mem_ranks.1 hs
  obtain ⟨diff, hdiff, hpart⟩ := (part_widened h hs').2 (hinv s hs' p hps)
  have hd := (mem_sphDiffs.1 hdiff).1
  exact box_global h (sendPartner_onGrid h.grid hs' hd) (leaving_home h hs' hd hpart)

/-- No particle is lost, none is doubled: all ranks together get what left them, each particle at its place in the periodic box, and each of them lies in the
box of the rank that adds it. -/
theorem C122_none_lost (h : WideGrid G) (hinv : NearbyLeavers G invalid) (below : Rat → Rat) :
    ((ranks G.grid).flatMap (G.entering below invalid)).Perm (((ranks G.grid).flatMap invalid).map (wrapped G.gMin G.gMax)) ∧
      AtHome G (G.entering below invalid) := by
  constructor
  · refine (List.Perm.flatMap_left _ fun r hr => ?_).trans (ranks_partition h (wrapped_inBox h hinv))
    exact C122_entering h hinv below (mem_ranks.1 hr)
  · intro r hr p hp
    have := (C122_entering h hinv below hr).mem_iff.1 hp
    exact of_decide_eq_true (List.mem_filter.1 this).2

theorem wrapCoord_inside {a b x : Rat} (h1 : a ≤ x) (h2 : x < b) : wrapCoord a b x = x := by
  unfold wrapCoord; rw [if_neg (not_lt.2 h1), if_neg (not_le.2 h2)]

/-- A whole step: the particles have moved by less than a cutoff, `updateContainer` splits them into those that are still in the box of their rank and the
others, and these are exchanged. Afterwards every rank again owns exactly the particles of the periodic system that lie in its box. -/
theorem C122_step (h : WideGrid G) {moved : V3 Nat → List Particle}
    (hmoved : ∀ r, OnGrid G r → ∀ p ∈ moved r, InWidened (G.lo r) (G.hi r) G.cutoff p.pos) (below : Rat → Rat) {r : V3 Nat} (hr : OnGrid G r) :
    ((moved r).filter (fun p => decide (InBox p.pos (G.lo r) (G.hi r))) ++
      G.entering below (fun s => (moved s).filter fun p => decide (¬ InBox p.pos (G.lo s) (G.hi s))) r).Perm
      ((((ranks G.grid).flatMap moved).map (wrapped G.gMin G.gMax)).filter fun q => decide (InBox q.pos (G.lo r) (G.hi r))) := by
  have hinv : NearbyLeavers G (fun s => (moved s).filter fun p => decide (¬ InBox p.pos (G.lo s) (G.hi s))) := by
    intro s hs p hp
    rw [List.mem_filter, decide_eq_true_eq] at hp
    exact ⟨hmoved s hs p hp.1, hp.2⟩
  refine ((C122_entering h hinv below hr).append_left _).trans ?_
  have hself : ∀ s, OnGrid G s → ∀ p : Particle, InBox p.pos (G.lo s) (G.hi s) → wrapped G.gMin G.gMax p = p := by
    intro s hs p hp
    have hg := inBox_iff_at.1 (box_global h hs hp)
    obtain ⟨i, ⟨x, y, z⟩, o⟩ := p
    have hx := hg .x
    have hy := hg .y
    have hz := hg .z
    simp only [V3.at] at hx hy hz
    unfold wrapped
    dsimp only
    rw [wrapCoord_inside hx.1 hx.2, wrapCoord_inside hy.1 hy.2, wrapCoord_inside hz.1 hz.2]
  have hsplit : ((ranks G.grid).flatMap moved).Perm
      (((ranks G.grid).flatMap fun s => (moved s).filter fun p => decide (InBox p.pos (G.lo s) (G.hi s))) ++
        (ranks G.grid).flatMap fun s => (moved s).filter fun p => decide (¬ InBox p.pos (G.lo s) (G.hi s))) := by
    refine List.Perm.trans ?_ (List.flatMap_append_perm _ _ _).symm
    refine List.Perm.flatMap_left _ fun s _ => ?_
    refine (List.filter_append_perm (fun p : Particle => decide (InBox p.pos (G.lo s) (G.hi s))) (moved s)).symm.trans (List.Perm.of_eq ?_)
    congr 1
    exact List.filter_congr fun p _ => by simp
  refine List.Perm.trans ?_ ((hsplit.map _).filter _).symm
  rw [List.map_append, List.filter_append]
  refine List.Perm.append_right _ (List.Perm.of_eq ?_)
  rw [List.map_flatMap, List.filter_flatMap, flatMap_only (ranks_nodup _) (mem_ranks.2 hr)]
  · have e : ((moved r).filter fun p => decide (InBox p.pos (G.lo r) (G.hi r))).map (wrapped G.gMin G.gMax) =
        (moved r).filter fun p => decide (InBox p.pos (G.lo r) (G.hi r)) := by
      refine (List.map_congr_left fun p hp => ?_).trans (List.map_id _)
      rw [List.mem_filter, decide_eq_true_eq] at hp
      exact hself r hr p hp.2
    rw [e, List.filter_filter]
    exact List.filter_congr fun p _ => by simp
  · intro s hs hne
    rw [List.filter_eq_nil_iff]
    intro q hq hc
    obtain ⟨p, hp, rfl⟩ := List.mem_map.1 hq
    rw [List.mem_filter, decide_eq_true_eq] at hp
    rw [hself s (mem_ranks.1 hs) p hp.2, decide_eq_true_eq] at hc
    exact hne (gridBox_unique h (mem_ranks.1 hs) hr hp.2 hc)

/-! ### Initial particles -/

theorem mem_sphLoop {a b dx x : Rat} (hdx : 0 < dx) (h : x ∈ sphLoop a b dx) : a ≤ x ∧ x < b := by
  unfold sphLoop at h
  obtain ⟨k, hk, rfl⟩ := List.mem_map.1 h
  rw [List.mem_range] at hk
  constructor
  · have : (0 : Rat) ≤ k := by positivity
    nlinarith
  · have h1 : (k : Int) < ⌈(b - a) / dx⌉ := by omega
    have h2 := Int.lt_ceil.1 h1
    push_cast at h2
    rw [lt_div_iff₀ hdx] at h2
    linarith

theorem mem_sphPositions {bMax : V3 Rat} {dx : Rat} (hdx : 0 < dx) (hb : ∀ d : Axis, 0 < bMax.at d) {p : V3 Rat} (h : p ∈ sphPositions bMax dx) :
    InBox p ⟨0, 0, 0⟩ bMax := by
  have hbx := hb .x
  simp only [V3.at] at hbx
  unfold sphPositions at h
  simp only [List.mem_append, List.mem_flatMap, List.mem_map] at h
  rw [inBox_iff_at]
  rcases h with ⟨x, hx, y, hy, z, hz, rfl⟩ | ⟨x, hx, y, hy, z, hz, rfl⟩
  · have h1 := mem_sphLoop hdx hx
    have h2 := mem_sphLoop hdx hy
    have h3 := mem_sphLoop hdx hz
    intro d
    cases d <;> simp only [V3.at]
    · exact ⟨h1.1, by linarith [h1.2]⟩
    · exact h2
    · exact h3
  · have h1 := mem_sphLoop (by linarith : 0 < dx * 2) hx
    have h2 := mem_sphLoop hdx hy
    have h3 := mem_sphLoop hdx hz
    intro d
    cases d <;> simp only [V3.at]
    · exact ⟨by linarith [h1.1], h1.2⟩
    · exact h2
    · exact h3

/-- `SetupIC`: each particle is created by exactly one rank, in whose box it lies, and all of them get the same mass, so that together they have the mass
3/4 per unit of volume. -/
theorem C122_setup (h : WideGrid G) (hmin : G.gMin = ⟨0, 0, 0⟩) {dx : Rat} (hdx : 0 < dx) :
    ((ranks G.grid).flatMap (G.setup dx)).Perm (sphParticles G.gMax dx) ∧ AtHome G (G.setup dx) ∧
      ((((ranks G.grid).flatMap (G.setup dx)).map fun _ => sphMass G.gMax dx).sum = 3 / 4 * (G.gMax.x * G.gMax.y * G.gMax.z)) := by
  have hb : ∀ d : Axis, 0 < G.gMax.at d := by
    intro d
    have := h.length d
    rw [hmin] at this
    cases d <;> exact this
  have hperm : ((ranks G.grid).flatMap (G.setup dx)).Perm (sphParticles G.gMax dx) := by
    refine List.Perm.trans (List.Perm.of_eq ?_) (ranks_partition h (l := sphParticles G.gMax dx) ?_)
    · refine List.flatMap_congr fun r _ => ?_
      unfold SPHGrid.setup
      refine List.filter_congr fun p _ => ?_
      rw [Bool.eq_iff_iff, inBoxB_at, decide_eq_true_eq, inBox_iff_at]
    · intro p hp
      unfold sphParticles at hp
      obtain ⟨⟨q, i⟩, hq, rfl⟩ := List.mem_map.1 hp
      rw [hmin]
      exact mem_sphPositions hdx hb (List.fst_mem_of_mem_zipIdx hq)
  refine ⟨hperm, fun r _ p hp => ?_, ?_⟩
  · unfold SPHGrid.setup at hp
    rw [List.mem_filter, inBoxB_at] at hp
    exact inBox_iff_at.2 hp.2
  · rw [List.map_const', List.sum_replicate, hperm.length_eq, nsmul_eq_mul]
    unfold sphMass
    have hne : ((sphParticles G.gMax dx).length : Rat) ≠ 0 := by
      have hz : ∀ d : Axis, (0 : Rat) ∈ sphLoop 0 (G.gMax.at d * (1 / 2)) dx ∧ (0 : Rat) ∈ sphLoop 0 (G.gMax.at d) dx := by
        intro d
        have := hb d
        constructor
        · refine List.mem_map.2 ⟨0, List.mem_range.2 ?_, by simp⟩
          have : (0 : Int) < ⌈(G.gMax.at d * (1 / 2) - 0) / dx⌉ := Int.ceil_pos.2 (by rw [sub_zero]; positivity)
          omega
        · refine List.mem_map.2 ⟨0, List.mem_range.2 ?_, by simp⟩
          have : (0 : Int) < ⌈(G.gMax.at d - 0) / dx⌉ := Int.ceil_pos.2 (by rw [sub_zero]; positivity)
          omega
      have hmem : (⟨0, 0, 0⟩ : V3 Rat) ∈ sphPositions G.gMax dx := by
        unfold sphPositions
        exact List.mem_append_left _ (List.mem_flatMap.2 ⟨0, (hz .x).1, List.mem_flatMap.2 ⟨0, (hz .y).2, List.mem_map.2 ⟨0, (hz .z).2, rfl⟩⟩⟩)
      have := List.length_pos_of_mem hmem
      unfold sphParticles
      simp only [List.length_map, List.length_zipIdx]
      exact_mod_cast this.ne'
    field_simp

/-! ### One rank -/

/-- The same for the example with one rank. -/
theorem C122_serial_halo {bMin bMax : V3 Rat} {cutoff : Rat} (hc : 0 < cutoff) (hw : ∀ d : Axis, cutoff ≤ bMax.at d - bMin.at d)
    {parts : List Particle} (hin : ∀ p ∈ parts, InBox p.pos bMin bMax) :
    (sphSerialHalo bMin bMax cutoff parts).Perm ((parts.flatMap (boxImages bMin bMax)).filter fun q =>
      decide (InWidened bMin bMax cutoff q.pos ∧ ¬ InBox q.pos bMin bMax)) := by
  let G : SPHGrid := ⟨bMin, bMax, ⟨1, 1, 1⟩, cutoff⟩
  have h : WideGrid G := ⟨hc, fun d => by cases d <;> exact Nat.one_pos, fun d => by
    have : (G.grid.at d) = 1 := by cases d <;> rfl
    rw [this]; push_cast; rw [mul_one]; exact hw d⟩
  have hr : OnGrid G ⟨0, 0, 0⟩ := ⟨Nat.one_pos, Nat.one_pos, Nat.one_pos⟩
  have hb : ∀ d : Axis, G.bounds ⟨0, 0, 0⟩ d = (bMin.at d, bMax.at d) := by
    intro d
    unfold SPHGrid.bounds sphBounds
    cases d <;> simp [V3.at, G]
  have hlo : G.lo ⟨0, 0, 0⟩ = bMin := by unfold SPHGrid.lo; rw [hb, hb, hb]; rfl
  have hhi : G.hi ⟨0, 0, 0⟩ = bMax := by unfold SPHGrid.hi; rw [hb, hb, hb]; rfl
  have hown : AtHome G (fun _ => parts) := by
    intro r hr p hp
    have : r = ⟨0, 0, 0⟩ := by
      obtain ⟨a, b, c⟩ := r
      obtain ⟨h1, h2, h3⟩ := hr
      simp only [G] at h1 h2 h3
      have e1 : a = 0 := by omega
      have e2 : b = 0 := by omega
      have e3 : c = 0 := by omega
      rw [e1, e2, e3]
    rw [this, hlo, hhi]
    exact hin p hp
  have key := C122_halo h hown hr
  have e1 : (ranks G.grid).flatMap (fun _ => parts) = parts := by
    show ([⟨0, 0, 0⟩] : List (V3 Nat)).flatMap (fun _ => parts) = parts
    simp
  rw [e1, hlo, hhi] at key
  refine List.Perm.trans ?_ key
  unfold SPHGrid.halo sphSerialHalo
  have hneg : (sphDiffs.map v3neg).Perm sphDiffs := by decide
  refine List.Perm.trans ?_ (List.Perm.flatMap_right _ hneg)
  rw [List.flatMap_map]
  refine List.Perm.of_eq (List.flatMap_congr fun diff hdiff => ?_)
  have hd := (mem_sphDiffs.1 hdiff).1
  have hrec : G.recvPartner ⟨0, 0, 0⟩ (v3neg diff) = ⟨0, 0, 0⟩ := by
    have := recvPartner_onGrid h.grid hr (diff := v3neg diff) fun a => by rw [v3neg_at]; exact isDiff_neg (hd a)
    obtain ⟨h1, h2, h3⟩ := this
    simp only [G, Nat.lt_one_iff] at h1 h2 h3
    refine sph_v3_ext fun d => ?_
    cases d
    · exact h1
    · exact h2
    · exact h3
  rw [hrec]
  unfold SPHGrid.haloMessage
  dsimp only
  have e : ∀ d : Axis, sphRequiredHalo (bMin.at d) (bMax.at d) (diff.at d) cutoff =
      sphSendHalo (G.bounds ⟨0, 0, 0⟩ d).1 (G.bounds ⟨0, 0, 0⟩ d).2 ((v3neg diff).at d) G.cutoff (G.gMin.at d) (G.gMax.at d) := by
    intro d
    rw [hb, v3neg_at]
    unfold sphRequiredHalo sphSendHalo
    rcases hd d with e | e | e <;> rw [e] <;> simp [G]
  rw [e, e, e]

/-- `addEnteringParticles`: particles less than a box length away are brought to their place in the periodic box, apart from the last representable number
below the upper end, which stands for what rounding would push onto it. -/
theorem C122_serial_entering {bMin bMax below : V3 Rat} (hb : ∀ d : Axis, bMin.at d ≤ below.at d ∧ below.at d < bMax.at d) {l : List Particle}
    (hl : ∀ p ∈ l, ∀ d : Axis, bMin.at d - (bMax.at d - bMin.at d) ≤ p.pos.at d ∧ p.pos.at d < bMax.at d + (bMax.at d - bMin.at d)) :
    (∀ q ∈ sphSerialEntering bMin bMax below l, InBox q.pos bMin bMax) ∧
      ((∀ p ∈ l, ∀ d : Axis, p.pos.at d < bMin.at d → p.pos.at d + (bMax.at d - bMin.at d) ≤ below.at d) →
        sphSerialEntering bMin bMax below l = l.map (wrapped bMin bMax)) := by
  have hat : ∀ (p : Particle) (d : Axis), (⟨sphReenter bMin.x bMax.x below.x p.pos.x, sphReenter bMin.y bMax.y below.y p.pos.y,
      sphReenter bMin.z bMax.z below.z p.pos.z⟩ : V3 Rat).at d = sphReenter (bMin.at d) (bMax.at d) (below.at d) (p.pos.at d) := by
    intro p d; cases d <;> rfl
  constructor
  · intro q hq
    obtain ⟨p, hp, rfl⟩ := List.mem_map.1 hq
    refine inBox_iff_at.2 fun d => ?_
    rw [hat]
    have h1 := hb d
    have h2 := hl p hp d
    unfold sphReenter
    split
    · exact ⟨le_min h1.1 (by linarith [h2.1]), lt_of_le_of_lt (min_le_left _ _) h1.2⟩
    · split
      · exact ⟨le_max_left _ _, max_lt (by linarith [h1.1, h1.2]) (by linarith [h2.2])⟩
      · constructor <;> linarith
  · intro hle
    unfold sphSerialEntering
    refine List.map_congr_left fun p hp => ?_
    have e : ∀ d : Axis, sphReenter (bMin.at d) (bMax.at d) (below.at d) (p.pos.at d) = wrapCoord (bMin.at d) (bMax.at d) (p.pos.at d) := by
      intro d
      unfold sphReenter wrapCoord
      split
      · exact min_eq_right (hle p hp d (by assumption))
      · split
        · exact max_eq_right (by linarith)
        · rfl
    have hx := e .x
    have hy := e .y
    have hz := e .z
    simp only [V3.at] at hx hy hz
    unfold wrapped
    rw [hx, hy, hz]

/-! ### Examples -/

/-- Two by one by one ranks. -/
def sphTwo : SPHGrid := ⟨⟨0, 0, 0⟩, ⟨4, 2, 2⟩, ⟨2, 1, 1⟩, 1⟩

theorem sphTwo_wide : WideGrid sphTwo := ⟨by norm_num [sphTwo], fun d => by cases d <;> decide, fun d => by cases d <;> norm_num [sphTwo, V3.at]⟩

def sphTwoOwn (r : V3 Nat) : List Particle := if r = ⟨0, 0, 0⟩ then [⟨0, ⟨1 / 2, 1, 1⟩, .owned⟩] else if r = ⟨1, 0, 0⟩ then [⟨1, ⟨3, 1 / 2, 1⟩, .owned⟩] else []

theorem sphTwo_atHome : AtHome sphTwo sphTwoOwn := by
  intro r hr p hp
  unfold sphTwoOwn at hp
  split at hp
  · rename_i e; subst e; rw [List.mem_singleton] at hp; subst hp; unfold InBox; decide +kernel
  · split at hp
    · rename_i e; subst e; rw [List.mem_singleton] at hp; subst hp; unfold InBox; decide +kernel
    · cases hp

/-- Rank 1 sees the particle of rank 0 beyond the periodic boundary in four images, and three images of its own. -/
example : ⟨0, ⟨9 / 2, 1, 1⟩, .owned⟩ ∈ sphTwo.halo sphTwoOwn ⟨1, 0, 0⟩ := by
  rw [(C122_halo sphTwo_wide sphTwo_atHome (by decide)).mem_iff]
  decide +kernel

example : (sphTwo.halo sphTwoOwn ⟨1, 0, 0⟩).length = 7 := by decide +kernel

/-- What has left: one particle to the neighbour, one across the periodic boundary, and one across an edge. -/
def sphTwoLeft (r : V3 Nat) : List Particle :=
  if r = ⟨0, 0, 0⟩ then [⟨0, ⟨5 / 2, 1, 1⟩, .owned⟩, ⟨1, ⟨-1 / 4, 1, 1⟩, .owned⟩]
  else if r = ⟨1, 0, 0⟩ then [⟨2, ⟨4, -1 / 2, 1⟩, .owned⟩] else []

theorem sphTwo_nearby : NearbyLeavers sphTwo sphTwoLeft := by
  intro r hr p hp
  unfold sphTwoLeft at hp
  split at hp
  · rename_i e; subst e
    rw [List.mem_cons, List.mem_singleton] at hp
    rcases hp with rfl | rfl <;> decide +kernel
  · split at hp
    · rename_i e; subst e; rw [List.mem_singleton] at hp; subst hp; decide +kernel
    · cases hp

example : sphTwo.entering id sphTwoLeft ⟨1, 0, 0⟩ = [⟨1, ⟨15 / 4, 1, 1⟩, .owned⟩, ⟨0, ⟨5 / 2, 1, 1⟩, .owned⟩] ∧
    sphTwo.entering id sphTwoLeft ⟨0, 0, 0⟩ = [⟨2, ⟨0, 3 / 2, 1⟩, .owned⟩] := by decide +kernel

example : ((ranks sphTwo.grid).flatMap (sphTwo.entering id sphTwoLeft)).length = 3 := by
  rw [(C122_none_lost sphTwo_wide sphTwo_nearby id).1.length_eq]; decide +kernel

example : AtHome sphTwo (sphTwo.setup 1) := (C122_setup sphTwo_wide rfl (by norm_num)).2.1
example : ((ranks sphTwo.grid).flatMap (sphTwo.setup 1)).length = 12 := by decide +kernel

example : sphSerialHalo ⟨0, 0, 0⟩ ⟨4, 2, 2⟩ 1 [⟨0, ⟨1 / 2, 3 / 2, 3 / 2⟩, .owned⟩] ≠ [] := by decide +kernel
example : sphSerialEntering ⟨0, 0, 0⟩ ⟨4, 2, 2⟩ ⟨39 / 10, 19 / 10, 19 / 10⟩ [⟨0, ⟨-1 / 2, 5 / 2, 1⟩, .owned⟩] = [⟨0, ⟨7 / 2, 1 / 2, 1⟩, .owned⟩] := by
  decide +kernel

/-! ### Where it fails -/

/-- A particle that has moved by more than a cutoff beyond the box of its rank is sent to nobody, and is gone. -/
theorem C122_violated_fast_particle : ∃ (invalid : V3 Nat → List Particle), (ranks sphTwo.grid).flatMap invalid = [⟨0, ⟨7 / 2, 1, 1⟩, .owned⟩] ∧
    InBox (⟨7 / 2, 1, 1⟩ : V3 Rat) sphTwo.gMin sphTwo.gMax ∧ ∀ below, (ranks sphTwo.grid).flatMap (sphTwo.entering below invalid) = [] := by
  refine ⟨fun r => if r = ⟨0, 0, 0⟩ then [⟨0, ⟨7 / 2, 1, 1⟩, .owned⟩] else [], by decide +kernel, by decide +kernel, fun below => ?_⟩
  have e : ∀ r ∈ ranks sphTwo.grid, (sphDiffs.flatMap fun diff => sphTwo.leavingMessage
      (fun r => if r = ⟨0, 0, 0⟩ then [⟨0, ⟨7 / 2, 1, 1⟩, .owned⟩] else []) (sphTwo.recvPartner r diff) diff) = [] := by decide +kernel
  rw [List.flatMap_eq_nil_iff]
  intro r hr
  unfold SPHGrid.entering
  rw [e r hr]
  rfl

/-- Local boxes narrower than the cutoff: a partner two boxes away is missing. -/
theorem C122_violated_narrow_box : ∃ (G : SPHGrid) (own : V3 Nat → List Particle) (a b : Particle), AtHome G own ∧ a ∈ own ⟨0, 0, 0⟩ ∧ b ∈ own ⟨2, 0, 0⟩ ∧
    OnGrid G ⟨2, 0, 0⟩ ∧ (a.pos.x - b.pos.x) ^ 2 + (a.pos.y - b.pos.y) ^ 2 + (a.pos.z - b.pos.z) ^ 2 ≤ G.cutoff ^ 2 ∧
    b ∉ own ⟨0, 0, 0⟩ ++ G.halo own ⟨0, 0, 0⟩ := by
  refine ⟨⟨⟨0, 0, 0⟩, ⟨4, 2, 2⟩, ⟨4, 1, 1⟩, 3 / 2⟩,
    fun r => if r = ⟨0, 0, 0⟩ then [⟨0, ⟨3 / 4, 1, 1⟩, .owned⟩] else if r = ⟨2, 0, 0⟩ then [⟨1, ⟨2, 1, 1⟩, .owned⟩] else [],
    ⟨0, ⟨3 / 4, 1, 1⟩, .owned⟩, ⟨1, ⟨2, 1, 1⟩, .owned⟩, ?_, by decide +kernel, by decide +kernel, by decide, by norm_num, by decide +kernel⟩
  intro r hr p hp
  dsimp only at hp
  split at hp
  · rename_i e; subst e; rw [List.mem_singleton] at hp; subst hp; decide +kernel
  · split at hp
    · rename_i e; subst e; rw [List.mem_singleton] at hp; subst hp; decide +kernel
    · cases hp

end Verif
