import Verif.Lemmas.MDObjectsPacked
/-! Lemmas about objects of md-flexible and the simulation box. -/
namespace Verif

open Spec.MDObjects

theorem inBoxReal_iff {p lo hi : V3 ℝ} : inBoxReal p lo hi = true ↔ InBox p lo hi := by
  simp [inBoxReal, InBox, and_assoc]

/-! ### Gauss -/

theorem gaussAttempts_spec {lo hi : V3 ℝ} {pos : Nat → V3 ℝ} : ∀ (left k : Nat) {r : V3 ℝ × Nat},
    gaussAttempts lo hi pos left k = .ok r → InBox r.1 lo hi
  | 0, k, r, h => by
    unfold gaussAttempts at h
    split at h
    · rename_i hb
      injection h with h
      subst h
      exact inBoxReal_iff.1 hb
    · exact absurd h (by simp)
  | left + 1, k, r, h => by
    unfold gaussAttempts at h
    split at h
    · rename_i hb
      injection h with h
      subst h
      exact inBoxReal_iff.1 hb
    · exact gaussAttempts_spec left (k + 1) h

theorem gaussAttempts_ok {lo hi : V3 ℝ} {pos : Nat → V3 ℝ} : ∀ (left k : Nat), (∃ i, i ≤ left ∧ InBox (pos (k + i)) lo hi) →
    ∃ r, gaussAttempts lo hi pos left k = .ok r
  | 0, k, h => by
    obtain ⟨i, hi0, hb⟩ := h
    obtain rfl : i = 0 := by omega
    have hb' : inBoxReal (pos k) lo hi = true := inBoxReal_iff.2 hb
    exact ⟨(pos k, k + 1), by rw [gaussAttempts, if_pos hb']⟩
  | left + 1, k, h => by
    unfold gaussAttempts
    split
    · exact ⟨_, rfl⟩
    · rename_i hn
      refine gaussAttempts_ok left (k + 1) ?_
      obtain ⟨i, hi, hb⟩ := h
      cases i with
      | zero => exact absurd (inBoxReal_iff.2 hb) hn
      | succ i => exact ⟨i, by omega, by rw [show k + 1 + i = k + (i + 1) by omega]; exact hb⟩

theorem gaussAttempts_throws {lo hi : V3 ℝ} {pos : Nat → V3 ℝ} : ∀ (left k : Nat), (∀ i, i ≤ left → ¬ InBox (pos (k + i)) lo hi) →
    gaussAttempts lo hi pos left k = .throws
  | 0, k, h => by
    have hn : ¬ inBoxReal (pos k) lo hi = true := fun hb => h 0 (Nat.le_refl _) (inBoxReal_iff.1 hb)
    rw [gaussAttempts, if_neg hn]
  | left + 1, k, h => by
    have hn : ¬ inBoxReal (pos k) lo hi = true := fun hb => h 0 (by omega) (inBoxReal_iff.1 hb)
    rw [gaussAttempts, if_neg hn]
    exact gaussAttempts_throws left (k + 1) fun i hi => by
      rw [show k + 1 + i = k + (i + 1) by omega]
      exact h (i + 1) (by omega)

theorem gaussPositions_spec {lo hi : V3 ℝ} {pos : Nat → V3 ℝ} : ∀ (n k : Nat) {qs : List (V3 ℝ)},
    gaussPositions lo hi pos n k = .ok qs → qs.length = n ∧ ∀ q ∈ qs, InBox q lo hi
  | 0, k, qs, h => by
    simp only [gaussPositions, Outcome.ok.injEq] at h
    subst h
    simp
  | n + 1, k, qs, h => by
    unfold gaussPositions at h
    obtain ⟨r, hr, h⟩ := Outcome.bind_ok.1 h
    obtain ⟨rest, hrest, h⟩ := Outcome.bind_ok.1 h
    injection h with h
    subst h
    obtain ⟨h1, h2⟩ := gaussPositions_spec n r.2 hrest
    refine ⟨by simp [h1], ?_⟩
    intro q hq
    rcases List.mem_cons.1 hq with rfl | hq
    · exact gaussAttempts_spec _ _ hr
    · exact h2 q hq

theorem gaussPositions_ok {lo hi : V3 ℝ} {pos : Nat → V3 ℝ} (h : ∀ k, ∃ i, i < 100 ∧ InBox (pos (k + i)) lo hi) :
    ∀ n k, ∃ qs, gaussPositions lo hi pos n k = .ok qs
  | 0, k => ⟨[], rfl⟩
  | n + 1, k => by
    obtain ⟨i, hi, hb⟩ := h k
    obtain ⟨r, hr⟩ := gaussAttempts_ok (gaussMaxAttempts - 1) k ⟨i, by simp [gaussMaxAttempts]; omega, hb⟩
    obtain ⟨qs, hq⟩ := gaussPositions_ok h n r.2
    exact ⟨r.1 :: qs, by rw [gaussPositions, hr, ok_bind_eq, hq, ok_bind_eq]⟩

/-! ### Positions of an object -/

theorem uniform_coord {lo len u : ℝ} (hl : 0 < len) (h : 0 ≤ u ∧ u < 1) : lo ≤ u * (lo + len - lo) + lo ∧ u * (lo + len - lo) + lo < lo + len := by
  rw [add_sub_cancel_left]
  constructor
  · nlinarith [mul_nonneg h.1 hl.le]
  · nlinarith [mul_lt_mul_of_pos_right h.2 hl]

theorem packedSite_ge {s : ℝ} (hs : 0 < s) (c : V3 ℝ) (i j k : Nat) :
    c.x ≤ (packedSite s c i j k).x ∧ c.y ≤ (packedSite s c i j k).y ∧ c.z ≤ (packedSite s c i j k).z := by
  simp only [packedSite]
  refine ⟨?_, ?_, ?_⟩
  · have : 0 ≤ s * ((i : ℝ) + if (j + k) % 2 = 1 then 1 / 2 else 0) := by
      refine mul_nonneg hs.le (add_nonneg (Nat.cast_nonneg _) ?_)
      split <;> norm_num
    linarith
  · have : 0 ≤ s * (Real.sqrt (3 / 4) * (j : ℝ) + if k % 2 = 1 then Real.sqrt (1 / 12) else 0) := by
      refine mul_nonneg hs.le (add_nonneg (by positivity) ?_)
      split
      · positivity
      · exact le_rfl
    linarith
  · have : 0 ≤ s * (Real.sqrt (2 / 3) * (k : ℝ)) := by positivity
    linarith

theorem abs_coord {c s : ℝ} (hs : 0 < s) {i r : Int} (h : |i| ≤ r) : c - (r : ℝ) * s ≤ c + s * (i : ℝ) ∧ c + s * (i : ℝ) ≤ c + (r : ℝ) * s := by
  obtain ⟨h1, h2⟩ := abs_le.1 h
  have h1' : -(r : ℝ) ≤ (i : ℝ) := by exact_mod_cast h1
  have h2' : (i : ℝ) ≤ (r : ℝ) := by exact_mod_cast h2
  constructor <;> nlinarith

theorem grid_coord {c s : ℝ} (hs : 0 < s) {i n : Nat} (h : i < n) : c ≤ c + s * (i : ℝ) ∧ c + s * (i : ℝ) ≤ c + ((n : ℝ) - 1) * s := by
  have h1 : (0 : ℝ) ≤ (i : ℝ) := Nat.cast_nonneg _
  have h2 : (i : ℝ) ≤ (n : ℝ) - 1 := by
    have : ((i + 1 : Nat) : ℝ) ≤ (n : ℝ) := by exact_mod_cast h
    push_cast at this
    linarith
  constructor <;> nlinarith

/-- The particles of an object are in the box of the object; those of objects without spacing not at its upper end. -/
theorem positions_in_box {rnd : ObjRandom} (hf : rnd.Fair) {o : ObjShape} (hv : o.Valid) {qs : List (V3 ℝ)} (h : o.positions rnd = .ok qs)
    {q : V3 ℝ} (hq : q ∈ qs) :
    InClosedBox q o.boxMin o.boxMax ∧ 0 ≤ o.spacing ∧ (o.spacing = 0 → InBox q o.boxMin o.boxMax) := by
  cases o with
  | cubeGrid n s c =>
    simp only [ObjShape.positions, Outcome.ok.injEq] at h
    subst h
    simp only [ObjShape.Valid] at hv
    obtain ⟨i, j, k, hi, hj, hk, rfl⟩ := mem_gridPositions.1 hq
    refine ⟨⟨grid_coord hv hi, grid_coord hv hj, grid_coord hv hk⟩, hv.le, fun h0 => absurd h0 hv.ne'⟩
  | cubeGauss n len mean sd c =>
    have h1 := (gaussPositions_spec _ _ h).2 q hq
    exact ⟨⟨⟨h1.1.1, h1.1.2.le⟩, ⟨h1.2.1.1, h1.2.1.2.le⟩, ⟨h1.2.2.1, h1.2.2.2.le⟩⟩, le_rfl, fun _ => h1⟩
  | cubeUniform n len c =>
    simp only [ObjShape.positions, Outcome.ok.injEq] at h
    subst h
    obtain ⟨hx, hy, hz⟩ := hv
    simp only [uniformPositions, List.mem_map] at hq
    obtain ⟨i, _, rfl⟩ := hq
    obtain ⟨fx, fy, fz⟩ := hf i
    have h1 : InBox (uniformPosition c (addV c len) (rnd.uniform i)) c (addV c len) :=
      ⟨uniform_coord hx fx, uniform_coord hy fy, uniform_coord hz fz⟩
    exact ⟨⟨⟨h1.1.1, h1.1.2.le⟩, ⟨h1.2.1.1, h1.2.1.2.le⟩, ⟨h1.2.2.1, h1.2.2.2.le⟩⟩, le_rfl, fun _ => h1⟩
  | sphere c r s =>
    simp only [ObjShape.positions, Outcome.ok.injEq] at h
    subst h
    simp only [ObjShape.Valid] at hv
    obtain ⟨i, j, k, hi, hj, hk, _, rfl⟩ := (mem_spherePositions hv.ne').1 hq
    exact ⟨⟨abs_coord hv hi, abs_coord hv hj, abs_coord hv hk⟩, hv.le, fun h0 => absurd h0 hv.ne'⟩
  | cubeClosestPacked s len c =>
    obtain ⟨hs, _, _, _⟩ := hv
    obtain ⟨⟨i, j, k, rfl⟩, h1, h2, h3⟩ := (mem_packedPositions hs h).1 hq
    obtain ⟨g1, g2, g3⟩ := packedSite_ge hs c i j k
    exact ⟨⟨⟨g1, h1.le⟩, ⟨g2, h2.le⟩, ⟨g3, h3.le⟩⟩, hs.le, fun h0 => absurd h0 hs.ne'⟩

/-! ### All objects -/

theorem generateAll_append (rnd : ObjRandom) : ∀ (as bs : List MDObject) (ps : List ObjParticle),
    generateAll rnd (as ++ bs) ps = (generateAll rnd as ps).bind (generateAll rnd bs)
  | [], bs, ps => rfl
  | a :: as, bs, ps => by
    simp only [List.cons_append, generateAll]
    cases a.generate rnd ps with
    | ok qs => simp only [Outcome.bind]; exact generateAll_append rnd as bs qs
    | throws => rfl
    | ub => rfl
    | diverges => rfl

theorem initializeObjects_eq (rnd : ObjRandom) (c : ObjConfig) : c.initializeObjects rnd = generateAll rnd c.objects [] := by
  unfold ObjConfig.initializeObjects ObjConfig.objects
  rw [generateAll_append, generateAll_append, generateAll_append, generateAll_append]
  cases generateAll rnd c.grids [] with
  | ok p1 =>
    simp only [Outcome.bind]
    cases generateAll rnd c.gausses p1 with
    | ok p2 =>
      simp only
      cases generateAll rnd c.uniforms p2 with
      | ok p3 =>
        simp only
      | throws => rfl
      | ub => rfl
      | diverges => rfl
    | throws => rfl
    | ub => rfl
    | diverges => rfl
  | throws => rfl
  | ub => rfl
  | diverges => rfl

theorem generateAll_chunks (rnd : ObjRandom) : ∀ (os : List MDObject) (ps out : List ObjParticle), generateAll rnd os ps = .ok out →
    ∃ chunks, List.Forall₂ (Chunk rnd) os chunks ∧ out = ps ++ chunks.flatten ∧
      chunks.flatten.map (·.id) = (List.range chunks.flatten.length).map (ps.length + ·)
  | [], ps, out, h => by
    simp only [generateAll, Outcome.ok.injEq] at h
    subst h
    exact ⟨[], List.Forall₂.nil, by simp, by simp⟩
  | o :: os, ps, out, h => by
    unfold generateAll at h
    obtain ⟨ps1, h1, h2⟩ := Outcome.bind_ok.1 h
    unfold MDObject.generate at h1
    obtain ⟨qs, hq, h1⟩ := Outcome.bind_ok.1 h1
    injection h1 with h1
    subst h1
    obtain ⟨chunks, hc, ho, hid⟩ := generateAll_chunks rnd os _ _ h2
    refine ⟨placeFrom (dummyParticle o.vel o.typeId ps.length) ps.length qs :: chunks, List.Forall₂.cons ⟨?_, ?_⟩ hc, ?_, ?_⟩
    · rw [placeFrom_pos]; exact hq
    · intro p hp
      obtain ⟨a, b, d, e, f, _⟩ := placeFrom_same _ _ _ p hp
      exact ⟨a, d, b, e, f⟩
    · rw [ho, List.flatten_cons, List.append_assoc]
    · rw [List.flatten_cons, List.map_append, placeFrom_id, hid, List.length_append, List.length_append, placeFrom_length,
        List.range_add, List.map_append, List.map_map]
      congr 1
      refine List.map_congr_left fun i _ => ?_
      simp only [Function.comp]
      omega

/-! ### The simulation box -/

/-- Box `b'` contains box `b`. -/
def BoxLe (b b' : V3 ℝ × V3 ℝ) : Prop :=
  (b'.1.x ≤ b.1.x ∧ b'.1.y ≤ b.1.y ∧ b'.1.z ≤ b.1.z) ∧ (b.2.x ≤ b'.2.x ∧ b.2.y ≤ b'.2.y ∧ b.2.z ≤ b'.2.z)

theorem BoxLe.refl (b : V3 ℝ × V3 ℝ) : BoxLe b b := ⟨⟨le_rfl, le_rfl, le_rfl⟩, ⟨le_rfl, le_rfl, le_rfl⟩⟩

theorem BoxLe.trans {a b c : V3 ℝ × V3 ℝ} (h1 : BoxLe a b) (h2 : BoxLe b c) : BoxLe a c :=
  ⟨⟨h2.1.1.trans h1.1.1, h2.1.2.1.trans h1.1.2.1, h2.1.2.2.trans h1.1.2.2⟩,
    ⟨h1.2.1.trans h2.2.1, h1.2.2.1.trans h2.2.2.1, h1.2.2.2.trans h2.2.2.2⟩⟩

/-- The box an object asks for. -/
noncomputable def padded (o : ObjShape) : V3 ℝ × V3 ℝ :=
  (⟨o.boxMin.x - o.spacing / 2, o.boxMin.y - o.spacing / 2, o.boxMin.z - o.spacing / 2⟩,
    ⟨o.boxMax.x + o.spacing / 2, o.boxMax.y + o.spacing / 2, o.boxMax.z + o.spacing / 2⟩)

theorem enlargeFor_le (b : V3 ℝ × V3 ℝ) (o : MDObject) : BoxLe b (enlargeFor b o) ∧ BoxLe (padded o.shape) (enlargeFor b o) := by
  simp [BoxLe, enlargeFor, padded]

theorem foldl_enlarge_le : ∀ (os : List MDObject) (b : V3 ℝ × V3 ℝ), BoxLe b (os.foldl enlargeFor b) ∧
    ∀ o ∈ os, BoxLe (padded o.shape) (os.foldl enlargeFor b)
  | [], b => ⟨BoxLe.refl b, by simp⟩
  | o :: os, b => by
    obtain ⟨h1, h2⟩ := foldl_enlarge_le os (enlargeFor b o)
    obtain ⟨e1, e2⟩ := enlargeFor_le b o
    refine ⟨e1.trans h1, ?_⟩
    intro o' ho'
    rcases List.mem_cons.1 ho' with rfl | ho'
    · exact e2.trans h1
    · exact h2 o' ho'

theorem enlargeAxis_le {il lo hi : ℝ} (h : 0 ≤ il) : (enlargeAxis il lo hi).1 ≤ lo ∧ hi ≤ (enlargeAxis il lo hi).2 := by
  unfold enlargeAxis
  split
  · constructor <;> dsimp only <;> linarith
  · exact ⟨le_rfl, le_rfl⟩

theorem enlargeAxis_long {il lo hi : ℝ} (h : lo ≤ hi) : il ≤ (enlargeAxis il lo hi).2 - (enlargeAxis il lo hi).1 := by
  unfold enlargeAxis
  split
  · dsimp only; linarith
  · dsimp only; linarith

theorem simulationBox_le (c : ObjConfig) (h : 0 ≤ c.interactionLength) : BoxLe (c.boxMin, c.boxMax) c.simulationBox ∧
    ∀ o ∈ c.objects, BoxLe (padded o.shape) c.simulationBox := by
  set b0 : V3 ℝ × V3 ℝ := (c.boxMin, c.boxMax)
  set b1 := c.gausses.foldl enlargeFor b0 with hb1
  set b2 := c.grids.foldl enlargeFor b1 with hb2
  set b3 := c.uniforms.foldl enlargeFor b2 with hb3
  set b4 := c.spheres.foldl enlargeFor b3 with hb4
  set b5 := c.packed.foldl enlargeFor b4 with hb5
  have h1 := foldl_enlarge_le c.gausses b0
  have h2 := foldl_enlarge_le c.grids b1
  have h3 := foldl_enlarge_le c.uniforms b2
  have h4 := foldl_enlarge_le c.spheres b3
  have h5 := foldl_enlarge_le c.packed b4
  rw [← hb1] at h1; rw [← hb2] at h2; rw [← hb3] at h3; rw [← hb4] at h4; rw [← hb5] at h5
  have h6 : BoxLe b5 c.simulationBox := by
    have ex := enlargeAxis_le (lo := b5.1.x) (hi := b5.2.x) h
    have ey := enlargeAxis_le (lo := b5.1.y) (hi := b5.2.y) h
    have ez := enlargeAxis_le (lo := b5.1.z) (hi := b5.2.z) h
    exact ⟨⟨ex.1, ey.1, ez.1⟩, ⟨ex.2, ey.2, ez.2⟩⟩
  refine ⟨(((((h1.1.trans h2.1).trans h3.1).trans h4.1).trans h5.1).trans h6), ?_⟩
  intro o ho
  simp only [ObjConfig.objects, List.mem_append] at ho
  rcases ho with (((ho | ho) | ho) | ho) | ho
  · exact ((((h2.2 o ho).trans h3.1).trans h4.1).trans h5.1).trans h6
  · exact (((((h1.2 o ho).trans h2.1).trans h3.1).trans h4.1).trans h5.1).trans h6
  · exact (((h3.2 o ho).trans h4.1).trans h5.1).trans h6
  · exact ((h4.2 o ho).trans h5.1).trans h6
  · exact (h5.2 o ho).trans h6

theorem simulationBox_long (c : ObjConfig) (hx : c.boxMin.x ≤ c.boxMax.x) (hy : c.boxMin.y ≤ c.boxMax.y)
    (hz : c.boxMin.z ≤ c.boxMax.z) :
    c.interactionLength ≤ c.simulationBox.2.x - c.simulationBox.1.x ∧ c.interactionLength ≤ c.simulationBox.2.y - c.simulationBox.1.y ∧
      c.interactionLength ≤ c.simulationBox.2.z - c.simulationBox.1.z := by
  have h1 := (foldl_enlarge_le c.gausses (c.boxMin, c.boxMax)).1
  have h2 := h1.trans (foldl_enlarge_le c.grids _).1
  have h3 := h2.trans (foldl_enlarge_le c.uniforms _).1
  have h4 := h3.trans (foldl_enlarge_le c.spheres _).1
  have h5 := h4.trans (foldl_enlarge_le c.packed _).1
  refine ⟨enlargeAxis_long ?_, enlargeAxis_long ?_, enlargeAxis_long ?_⟩
  · exact h5.1.1.trans (hx.trans h5.2.1)
  · exact h5.1.2.1.trans (hy.trans h5.2.2.1)
  · exact h5.1.2.2.trans (hz.trans h5.2.2.2)

theorem in_simulation_box {c : ObjConfig} (hil : 0 ≤ c.interactionLength) {rnd : ObjRandom} (hf : rnd.Fair) {o : MDObject}
    (ho : o ∈ c.objects) (hv : o.shape.Valid) {qs : List (V3 ℝ)} (h : o.shape.positions rnd = .ok qs) {q : V3 ℝ} (hq : q ∈ qs) :
    InBox q c.simulationBox.1 c.simulationBox.2 := by
  obtain ⟨⟨hx, hy, hz⟩, hs, hstrict⟩ := positions_in_box hf hv h hq
  have hb := (simulationBox_le c hil).2 o ho
  simp only [BoxLe, padded] at hb
  obtain ⟨⟨a1, a2, a3⟩, b1, b2, b3⟩ := hb
  rcases eq_or_lt_of_le hs with h0 | h0
  · obtain ⟨⟨_, kx⟩, ⟨_, ky⟩, ⟨_, kz⟩⟩ := hstrict h0.symm
    refine ⟨⟨?_, ?_⟩, ⟨?_, ?_⟩, ⟨?_, ?_⟩⟩ <;> linarith
  · refine ⟨⟨?_, ?_⟩, ⟨?_, ?_⟩, ⟨?_, ?_⟩⟩ <;> linarith

/-- Far apart along one axis is far apart. -/
theorem le_dist2_of_axis {d a b e : ℝ} (hd : 0 ≤ d) (h : d ≤ |a|) : d ^ 2 ≤ a ^ 2 + b ^ 2 + e ^ 2 := by
  have h1 : d ^ 2 ≤ a ^ 2 := by
    rw [← sq_abs a]
    exact pow_le_pow_left₀ hd h 2
  have := sq_nonneg b
  have := sq_nonneg e
  linarith

/-- Along an axis with a shift by whole box lengths, two points that keep away from the walls keep away from each other's images. -/
theorem image_axis {lo hi p q d1 d2 : ℝ} (h1 : lo + d1 ≤ p) (h2 : p ≤ hi - d1) (h3 : lo + d2 ≤ q) (h4 : q ≤ hi - d2)
    (hd1 : 0 ≤ d1) (hd2 : 0 ≤ d2) {a : Int} (ha : a ≠ 0) : d1 + d2 ≤ |p - (q + a * (hi - lo))| := by
  have hl : 0 ≤ hi - lo := by linarith
  rcases lt_or_gt_of_ne ha with h | h
  · have hc : (a : ℝ) ≤ -1 := by
      have : a ≤ -1 := by omega
      exact_mod_cast this
    refine le_trans ?_ (le_abs_self _)
    nlinarith
  · have hc : (1 : ℝ) ≤ a := by
      have : 1 ≤ a := by omega
      exact_mod_cast this
    refine le_trans ?_ (neg_le_abs _)
    nlinarith

end Verif
