import Verif.Lemmas.MDObjectsBox
/-!
C104: the objects described in the input of md-flexible turn into the particles the user asked for.

Statements in terms of lattices and boxes (`Spec/MDObjects.lean`); the model of the generators is `Model/MDObjects.lean`.
-/
namespace Verif

open Spec.MDObjects

/-- A grid object consists of exactly the points of the cubic lattice, each once, and no two particles are closer than the spacing. -/
theorem C104_grid (rnd : ObjRandom) (n : V3 Nat) {s : ℝ} (hs : 0 < s) (corner : V3 ℝ) :
    ∃ ps, (ObjShape.cubeGrid n s corner).positions rnd = .ok ps ∧ (∀ p, p ∈ ps ↔ GridPoint n s corner p) ∧
      ps.length = n.x * n.y * n.z ∧ ps.Pairwise fun p q => s ^ 2 ≤ dist2 p q :=
  ⟨_, rfl, fun _ => mem_gridPositions, gridPositions_length _ _ _, gridPositions_distance hs.ne' corner⟩

/-- A sphere object consists of exactly the lattice points around the centre within reach, each once. -/
theorem C104_sphere (rnd : ObjRandom) (c : V3 ℝ) (r : Int) {s : ℝ} (hs : 0 < s) :
    ∃ ps, (ObjShape.sphere c r s).positions rnd = .ok ps ∧ (∀ p, p ∈ ps ↔ SpherePoint c r s p) ∧
      ps.Nodup ∧ ps.Pairwise fun p q => s ^ 2 ≤ dist2 p q :=
  ⟨_, rfl, fun _ => mem_spherePositions hs.ne', spherePositions_nodup hs.ne', spherePositions_distance hs.ne'⟩

/-- A closest packing object consists of exactly the sites of the hexagonal closest packing in the box, and no two particles are closer
than the spacing. The loops end. -/
theorem C104_closest_packed (rnd : ObjRandom) {s : ℝ} (hs : 0 < s) (len corner : V3 ℝ) :
    ∃ ps, (ObjShape.cubeClosestPacked s len corner).positions rnd = .ok ps ∧ (∀ p, p ∈ ps ↔ PackedPoint s len corner p) ∧
      ps.Pairwise fun p q => s ^ 2 ≤ dist2 p q := by
  obtain ⟨ps, h⟩ : ∃ ps, packedPositions corner (addV corner len) s = .ok ps := ⟨_, packedPositions_eq hs⟩
  exact ⟨ps, h, fun _ => mem_packedPositions hs h, packedPositions_distance hs h⟩

/-- Neighbours in the packing touch: the spacing is attained within a row, between rows and between layers. -/
theorem C104_closest_packed_touch (s : ℝ) (c : V3 ℝ) (i : Nat) :
    dist2 (packedSite s c i 0 0) (packedSite s c (i + 1) 0 0) = s ^ 2 ∧
      dist2 (packedSite s c i 0 0) (packedSite s c i 1 0) = s ^ 2 ∧
      dist2 (packedSite s c i 0 0) (packedSite s c i 0 1) = s ^ 2 := by
  have h3 : Real.sqrt (3 / 4) ^ 2 = 3 / 4 := Real.sq_sqrt (by norm_num)
  have h2 : Real.sqrt (2 / 3) ^ 2 = 2 / 3 := Real.sq_sqrt (by norm_num)
  have h12 : Real.sqrt (1 / 12) ^ 2 = 1 / 12 := Real.sq_sqrt (by norm_num)
  refine ⟨?_, ?_, ?_⟩
  · simp only [packedSite, dist2]
    push_cast
    norm_num
    try ring
  · have : dist2 (packedSite s c i 0 0) (packedSite s c i 1 0) = s ^ 2 * (1 / 4 + Real.sqrt (3 / 4) ^ 2) := by
      simp only [packedSite, dist2]
      norm_num [-Real.sqrt_div']
      ring
    rw [this, h3]; ring
  · have : dist2 (packedSite s c i 0 0) (packedSite s c i 0 1) =
        s ^ 2 * (1 / 4 + Real.sqrt (1 / 12) ^ 2 + Real.sqrt (2 / 3) ^ 2) := by
      simp only [packedSite, dist2]
      norm_num [-Real.sqrt_div', -one_div]
      ring
    rw [this, h12, h2]; ring

/-- A uniform object consists of the requested number of particles in its box. -/
theorem C104_uniform {rnd : ObjRandom} (hf : rnd.Fair) (n : Nat) {len : V3 ℝ} (hl : 0 < len.x ∧ 0 < len.y ∧ 0 < len.z) (corner : V3 ℝ) :
    ∃ ps, (ObjShape.cubeUniform n len corner).positions rnd = .ok ps ∧ ps.length = n ∧
      ∀ p ∈ ps, InBox p corner ⟨corner.x + len.x, corner.y + len.y, corner.z + len.z⟩ := by
  refine ⟨_, rfl, by simp [uniformPositions], fun p hp => ?_⟩
  exact (positions_in_box (o := .cubeUniform n len corner) hf hl rfl hp).2.2 rfl

/-- A gauss object consists of the requested number of particles in its box or the program stops with an exception; it does not if one of
any 100 consecutive values of the distribution is in the box. -/
theorem C104_gauss (rnd : ObjRandom) (n : Nat) (len mean sd corner : V3 ℝ) :
    (∀ ps, (ObjShape.cubeGauss n len mean sd corner).positions rnd = .ok ps → ps.length = n ∧
      ∀ p ∈ ps, InBox p corner ⟨corner.x + len.x, corner.y + len.y, corner.z + len.z⟩) ∧
    ((∀ k, ∃ i, i < 100 ∧ InBox ⟨mean.x + sd.x * (rnd.normal (k + i)).x, mean.y + sd.y * (rnd.normal (k + i)).y,
        mean.z + sd.z * (rnd.normal (k + i)).z⟩ corner ⟨corner.x + len.x, corner.y + len.y, corner.z + len.z⟩) →
      ∃ ps, (ObjShape.cubeGauss n len mean sd corner).positions rnd = .ok ps) := by
  refine ⟨fun ps h => gaussPositions_spec _ _ h, fun h => gaussPositions_ok (fun k => ?_) n 0⟩
  obtain ⟨i, hi, hb⟩ := h k
  refine ⟨i, hi, ?_⟩
  simpa [gaussPosition, addV, add_comm, mul_comm] using hb

/-- The reported number of particles is the number of generated particles, unless it is too large for the `int` used to compute it. -/
theorem C104_number_partial {rnd : ObjRandom} {o : ObjShape} (hv : o.Valid) {ps : List (V3 ℝ)} (h : o.positions rnd = .ok ps)
    (hsmall : match o with
      | .cubeGrid n _ _ => n.x < 2 ^ 31 ∧ n.x * n.y < 2 ^ 31 ∧ n.x * n.y * n.z < 2 ^ 31
      | .cubeClosestPacked s len _ => 2 * len.x / s ≤ 2 ^ 31 - 1
      | _ => True) :
    o.total = .ok ps.length := by
  cases o with
  | cubeGrid n s c =>
    simp only [ObjShape.positions, Outcome.ok.injEq] at h
    subst h
    rw [ObjShape.total, gridTotal_eq n hsmall.1 hsmall.2.1 hsmall.2.2, gridPositions_length]
  | cubeGauss n len mean sd c => rw [ObjShape.total, (gaussPositions_spec _ _ h).1]
  | cubeUniform n len c =>
    simp only [ObjShape.positions, Outcome.ok.injEq] at h
    subst h
    simp [ObjShape.total, uniformPositions]
  | sphere c r s =>
    simp only [ObjShape.positions, Outcome.ok.injEq] at h
    subst h
    rfl
  | cubeClosestPacked s len c => exact packedTotal_eq hv.1 hv.2.1 hv.2.2.1 hv.2.2.2 hsmall h

/-- A grid of 2000 particles along each axis, i.e. 8 · 10⁹ particles: computing the number of particles is undefined behaviour. -/
theorem C104_violated_number (s : ℝ) (corner : V3 ℝ) : (ObjShape.cubeGrid ⟨2000, 2000, 2000⟩ s corner).total = .ub := by
  norm_num [ObjShape.total, gridTotalStep, Outcome.bind]

/-- The particles of all objects, in the order of the objects, have the positions, type and velocity of their object, are owned and at rest
as far as forces are concerned. -/
theorem C104_particles (rnd : ObjRandom) (c : ObjConfig) {ps : List ObjParticle} (h : c.initializeObjects rnd = .ok ps) :
    ∃ chunks, List.Forall₂ (fun (o : MDObject) (chunk : List ObjParticle) =>
        o.shape.positions rnd = .ok (chunk.map (·.pos)) ∧
          ∀ p ∈ chunk, p.typeId = o.typeId ∧ p.vel = o.vel ∧ p.own = .owned ∧ p.force = ⟨0, 0, 0⟩ ∧ p.oldForce = ⟨0, 0, 0⟩)
        (c.grids ++ c.gausses ++ c.uniforms ++ c.spheres ++ c.packed) chunks ∧
      ps = chunks.flatten := by
  rw [initializeObjects_eq] at h
  obtain ⟨chunks, hc, ho, _⟩ := generateAll_chunks rnd _ _ _ h
  exact ⟨chunks, hc, by simpa using ho⟩

/-- The ids of all particles are 0, 1, 2, ... without gaps: no two particles share one. -/
theorem C104_ids (rnd : ObjRandom) (c : ObjConfig) {ps : List ObjParticle} (h : c.initializeObjects rnd = .ok ps) :
    ps.map (·.id) = List.range ps.length := by
  rw [initializeObjects_eq] at h
  obtain ⟨chunks, _, ho, hid⟩ := generateAll_chunks rnd _ _ _ h
  rw [List.nil_append] at ho
  subst ho
  simpa using hid

/-- Every generated particle is inside the simulation box. -/
theorem C104_inside (c : ObjConfig) (hil : 0 ≤ c.interactionLength) {rnd : ObjRandom} (hf : rnd.Fair)
    (hv : ∀ o ∈ c.grids ++ c.gausses ++ c.uniforms ++ c.spheres ++ c.packed, o.shape.Valid) {ps : List ObjParticle}
    (h : c.initializeObjects rnd = .ok ps) : ∀ p ∈ ps, InBox p.pos c.simulationBox.1 c.simulationBox.2 := by
  obtain ⟨chunks, hc, rfl⟩ := C104_particles rnd c h
  intro p hp'
  obtain ⟨chunk, hch, hp⟩ := List.mem_flatten.1 hp'
  obtain ⟨o, ho, hpos, _⟩ : ∃ o ∈ c.objects, Chunk rnd o chunk := by
    clear h hv hp hp'
    revert hch
    change List.Forall₂ (Chunk rnd) c.objects chunks at hc
    generalize c.objects = os at hc ⊢
    induction hc with
    | nil => simp
    | cons h1 _ ih =>
      intro hch
      rcases List.mem_cons.1 hch with rfl | hch
      · exact ⟨_, List.mem_cons_self, h1⟩
      · obtain ⟨o, ho, hc⟩ := ih hch
        exact ⟨o, List.mem_cons_of_mem _ ho, hc⟩
  exact in_simulation_box hil hf ho (hv o ho) hpos (List.mem_map.2 ⟨p, hp, rfl⟩)

/-- The simulation box contains the box the user gave and is at least as long as the interaction length. -/
theorem C104_box (c : ObjConfig) (hil : 0 ≤ c.interactionLength) (hx : c.boxMin.x ≤ c.boxMax.x) (hy : c.boxMin.y ≤ c.boxMax.y)
    (hz : c.boxMin.z ≤ c.boxMax.z) :
    (∀ p, InBox p c.boxMin c.boxMax → InBox p c.simulationBox.1 c.simulationBox.2) ∧
      c.interactionLength ≤ c.simulationBox.2.x - c.simulationBox.1.x ∧ c.interactionLength ≤ c.simulationBox.2.y - c.simulationBox.1.y ∧
      c.interactionLength ≤ c.simulationBox.2.z - c.simulationBox.1.z := by
  refine ⟨fun p hp => ?_, simulationBox_long c hx hy hz⟩
  obtain ⟨⟨a1, a2, a3⟩, b1, b2, b3⟩ := (simulationBox_le c hil).1
  obtain ⟨h1, h2, h3⟩ := hp
  exact ⟨⟨a1.trans h1.1, h1.2.trans_le b1⟩, ⟨a2.trans h2.1, h2.2.trans_le b2⟩, ⟨a3.trans h3.1, h3.2.trans_le b3⟩⟩

/-- With periodic boundaries the particles of lattice objects keep their distance from the periodic images of all particles of lattice
objects: at least the mean of the spacings. -/
theorem C104_periodic (c : ObjConfig) (hil : 0 ≤ c.interactionLength) {rnd : ObjRandom} (hf : rnd.Fair) {o o' : MDObject}
    (ho : o ∈ c.grids ++ c.gausses ++ c.uniforms ++ c.spheres ++ c.packed) (ho' : o' ∈ c.grids ++ c.gausses ++ c.uniforms ++ c.spheres ++ c.packed)
    (hv : o.shape.Valid) (hv' : o'.shape.Valid) {ps qs : List (V3 ℝ)} (h : o.shape.positions rnd = .ok ps)
    (h' : o'.shape.positions rnd = .ok qs) {p q : V3 ℝ} (hp : p ∈ ps) (hq : q ∈ qs) {i j k : Int} (hne : ¬ (i = 0 ∧ j = 0 ∧ k = 0)) :
    ((o.shape.spacing + o'.shape.spacing) / 2) ^ 2 ≤ dist2 p (image ⟨c.simulationBox.2.x - c.simulationBox.1.x,
      c.simulationBox.2.y - c.simulationBox.1.y, c.simulationBox.2.z - c.simulationBox.1.z⟩ i j k q) := by
  obtain ⟨⟨hx, hy, hz⟩, hs, _⟩ := positions_in_box hf hv h hp
  obtain ⟨⟨hx', hy', hz'⟩, hs', _⟩ := positions_in_box hf hv' h' hq
  have hb := (simulationBox_le c hil).2 o ho
  have hb' := (simulationBox_le c hil).2 o' ho'
  simp only [BoxLe, padded] at hb hb'
  obtain ⟨⟨a1, a2, a3⟩, b1, b2, b3⟩ := hb
  obtain ⟨⟨a1', a2', a3'⟩, b1', b2', b3'⟩ := hb'
  have hd : 0 ≤ (o.shape.spacing + o'.shape.spacing) / 2 := by linarith
  have hsum : o.shape.spacing / 2 + o'.shape.spacing / 2 = (o.shape.spacing + o'.shape.spacing) / 2 := by ring
  simp only [dist2, image]
  by_cases hi : i = 0
  · by_cases hj : j = 0
    · have hk : k ≠ 0 := fun hk => hne ⟨hi, hj, hk⟩
      have := image_axis (lo := c.simulationBox.1.z) (hi := c.simulationBox.2.z) (p := p.z) (q := q.z) (d1 := o.shape.spacing / 2)
        (d2 := o'.shape.spacing / 2) (by linarith) (by linarith) (by linarith) (by linarith) (by linarith) (by linarith) hk
      rw [hsum] at this
      have h2 := le_dist2_of_axis (b := p.x - (q.x + i * (c.simulationBox.2.x - c.simulationBox.1.x)))
        (e := p.y - (q.y + j * (c.simulationBox.2.y - c.simulationBox.1.y))) hd this
      linarith
    · have := image_axis (lo := c.simulationBox.1.y) (hi := c.simulationBox.2.y) (p := p.y) (q := q.y) (d1 := o.shape.spacing / 2)
        (d2 := o'.shape.spacing / 2) (by linarith) (by linarith) (by linarith) (by linarith) (by linarith) (by linarith) hj
      rw [hsum] at this
      have h2 := le_dist2_of_axis (b := p.x - (q.x + i * (c.simulationBox.2.x - c.simulationBox.1.x)))
        (e := p.z - (q.z + k * (c.simulationBox.2.z - c.simulationBox.1.z))) hd this
      linarith
  · have := image_axis (lo := c.simulationBox.1.x) (hi := c.simulationBox.2.x) (p := p.x) (q := q.x) (d1 := o.shape.spacing / 2)
      (d2 := o'.shape.spacing / 2) (by linarith) (by linarith) (by linarith) (by linarith) (by linarith) (by linarith) hi
    rw [hsum] at this
    have h2 := le_dist2_of_axis (b := p.y - (q.y + j * (c.simulationBox.2.y - c.simulationBox.1.y)))
      (e := p.z - (q.z + k * (c.simulationBox.2.z - c.simulationBox.1.z))) hd this
    linarith

/-- The documentation of the generator says that the mean is relative to the lower corner of the box. It is not: for a box from 100 to 110
and a mean of 5 (the middle of the box) with standard deviation 2, the program gives up unless a value is 47.5 standard deviations away. -/
theorem C104_violated_gauss_mean (rnd : ObjRandom) (hr : ∀ k, (rnd.normal k).x < 47) (n : Nat) :
    (ObjShape.cubeGauss (n + 1) ⟨10, 10, 10⟩ ⟨5, 5, 5⟩ ⟨2, 2, 2⟩ ⟨100, 100, 100⟩).positions rnd = .throws := by
  have h : gaussAttempts ⟨100, 100, 100⟩ (addV ⟨100, 100, 100⟩ ⟨10, 10, 10⟩)
      (fun k => gaussPosition ⟨5, 5, 5⟩ ⟨2, 2, 2⟩ (rnd.normal k)) (gaussMaxAttempts - 1) 0 = .throws := by
    refine gaussAttempts_throws _ _ fun i _ hb => ?_
    have h1 := hb.1.1
    simp only [gaussPosition] at h1
    have := hr (0 + i)
    linarith
  rw [ObjShape.positions, gaussPositions, h]
  rfl

/-! ### The hypotheses are met -/

/-- A generator that always draws the lower corner, and standard normal values 0. -/
def sampleRandom : ObjRandom := { uniform := fun _ => ⟨0, 0, 0⟩, normal := fun _ => ⟨0, 0, 0⟩ }

/-- One object of each class. -/
noncomputable def sampleObjects : ObjConfig :=
  { grids := [⟨.cubeGrid ⟨2, 1, 1⟩ 1 ⟨0, 0, 0⟩, ⟨1, 0, 0⟩, 0⟩]
    gausses := [⟨.cubeGauss 2 ⟨4, 4, 4⟩ ⟨1, 1, 1⟩ ⟨1, 1, 1⟩ ⟨0, 0, 0⟩, ⟨0, 0, 0⟩, 1⟩]
    uniforms := [⟨.cubeUniform 1 ⟨1, 1, 1⟩ ⟨3, 3, 3⟩, ⟨0, 0, 0⟩, 2⟩]
    spheres := [⟨.sphere ⟨9, 9, 9⟩ 0 1, ⟨0, 0, 0⟩, 3⟩]
    packed := [⟨.cubeClosestPacked 1 ⟨2, 1, 1⟩ ⟨0, 0, 0⟩, ⟨0, 0, 0⟩, 4⟩]
    boxMin := ⟨0, 0, 0⟩
    boxMax := ⟨5, 5, 5⟩
    interactionLength := 2 }

example : sampleRandom.Fair := fun _ => by simp [sampleRandom]

example : ∀ o ∈ sampleObjects.grids ++ sampleObjects.gausses ++ sampleObjects.uniforms ++ sampleObjects.spheres ++ sampleObjects.packed,
    o.shape.Valid := by
  simp [sampleObjects, ObjShape.Valid]

/-- All objects are generated: at least the six particles of the first four objects. -/
example : ∃ ps, sampleObjects.initializeObjects sampleRandom = .ok ps ∧ 6 ≤ ps.length := by
  obtain ⟨qs, hq⟩ := gaussPositions_ok (lo := ⟨0, 0, 0⟩) (hi := addV ⟨0, 0, 0⟩ ⟨4, 4, 4⟩)
    (pos := fun k => gaussPosition ⟨1, 1, 1⟩ ⟨1, 1, 1⟩ (sampleRandom.normal k))
    (fun k => ⟨0, by norm_num, by simp [InBox, gaussPosition, sampleRandom, addV]⟩) 2 0
  obtain ⟨rs, hr, _⟩ := C104_closest_packed sampleRandom (s := 1) one_pos ⟨2, 1, 1⟩ ⟨0, 0, 0⟩
  have hlen := (gaussPositions_spec _ _ hq).1
  have hs : (spherePositions ⟨9, 9, 9⟩ 0 1).length = 1 := by
    simp [spherePositions, forInt, mirrorSigns, sphereCoord]
  simp only [sampleObjects, ObjConfig.initializeObjects, generateAll, MDObject.generate, ObjShape.positions] at *
  rw [hq, hr]
  refine ⟨_, rfl, ?_⟩
  simp only [List.length_append, placeFrom_length, List.length_nil, gridPositions_length, hlen, uniformPositions, List.length_map,
    List.length_range, hs]
  omega

/-- The sphere of radius 1: the centre, its six neighbours, twelve points at distance √2 and eight at distance √3 spacings, all less than radius + 1. -/
example : ∃ p, SpherePoint ⟨0, 0, 0⟩ 1 2 p ∧ p = ⟨-2, 2, 2⟩ :=
  ⟨_, ⟨-1, 1, 1, by decide, by decide, by decide, by decide, by norm_num⟩, rfl⟩

example : (ObjShape.cubeGrid ⟨3, 4, 5⟩ 1 ⟨0, 0, 0⟩).total = .ok 60 := by
  norm_num [ObjShape.total, gridTotalStep, Outcome.bind]

end Verif
