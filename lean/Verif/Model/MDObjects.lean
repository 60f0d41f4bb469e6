import Mathlib.Analysis.Real.Sqrt
import Mathlib.Algebra.Order.Floor.Ring
import Verif.Model.Basic
import Verif.Model.Outcome
import Verif.Model.Ownership
/-!
The objects a user of md-flexible describes in the input file, the generators that turn them into particles, and the simulation box
computed from them:

* /repo/tools/autopasTools/generators/GridGenerator.h, ClosestPackingGenerator.h, UniformGenerator.{h,cpp}, GaussianGenerator.h
* /repo/examples/md-flexible/src/configuration/objects/*.h
* `calcSimulationBox` and `initializeObjects` of /repo/examples/md-flexible/src/configuration/MDFlexConfig.cpp

`double` is ℝ. The values of the random number generators are arbitrary sequences. Single-site mode of md-flexible.
-/
namespace Verif

noncomputable section

open Classical in
/-- `autopas::utils::inBox`, /repo/src/autopas/utils/inBox.h:26-36. -/
def inBoxReal (p lo hi : V3 ℝ) : Bool :=
  (decide (lo.x ≤ p.x) && decide (p.x < hi.x)) && (decide (lo.y ≤ p.y) && decide (p.y < hi.y)) &&
    (decide (lo.z ≤ p.z) && decide (p.z < hi.z))

/-- The attributes of a particle of md-flexible (single-site) that `getDummyParticle` sets. -/
structure ObjParticle where
  id : Nat
  typeId : Nat
  own : Ownership
  pos : V3 ℝ
  vel : V3 ℝ
  force : V3 ℝ
  oldForce : V3 ℝ

/-- `Object::getDummyParticle`, Object.h:42-57. -/
def dummyParticle (vel : V3 ℝ) (typeId id : Nat) : ObjParticle :=
  { id := id, typeId := typeId, own := .owned, pos := ⟨0, 0, 0⟩, vel := vel, force := ⟨0, 0, 0⟩, oldForce := ⟨0, 0, 0⟩ }

/-- The body of the innermost loop of all generators: copy the default particle, `setR`, `setID(id++)`, `addParticle`
(GridGenerator.h:99-103, ClosestPackingGenerator.h:53-56, UniformGenerator.h:94-98, GaussianGenerator.h:68-71, Sphere.h:139-143),
for the positions in the order of the loops. -/
def placeFrom (p0 : ObjParticle) : Nat → List (V3 ℝ) → List ObjParticle
  | _, [] => []
  | id, q :: qs => { p0 with pos := q, id := id } :: placeFrom p0 (id + 1) qs

/-- The positions of `GridGenerator::fillWithParticles` for containers, GridGenerator.h:90-106. -/
def gridPositions (n : V3 Nat) (spacing offset : V3 ℝ) : List (V3 ℝ) :=
  (List.range n.z).flatMap fun (z : Nat) =>
    (List.range n.y).flatMap fun (y : Nat) =>
      (List.range n.x).map fun (x : Nat) =>
        (⟨x * spacing.x + offset.x, y * spacing.y + offset.y, z * spacing.z + offset.z⟩ : V3 ℝ)

open Classical in
/-- `for (double x = start; x < stop; x += step)`; `none` if it has not ended after `fuel` rounds. -/
def upLoop (stop step : ℝ) : Nat → ℝ → Option (List ℝ)
  | 0, _ => none
  | fuel + 1, x => if x < stop then (upLoop stop step fuel (x + step)).map (x :: ·) else some []

/-- The same loop without a bound: if it has not ended after as many rounds as a loop with a positive step takes, it never ends. -/
def upValues (start stop step : ℝ) : Outcome (List ℝ) :=
  match upLoop stop step (⌈(stop - start) / step⌉₊ + 1) start with
  | none => .diverges
  | some xs => .ok xs

/-- The loop over `y` of ClosestPackingGenerator.h:50-59, with `evenRow` as argument. -/
def packedRows (boxMin boxMax : V3 ℝ) (spacing z : ℝ) : Bool → List ℝ → Outcome (List (V3 ℝ))
  | _, [] => .ok []
  | evenRow, y :: ys =>
    (upValues (if evenRow then boxMin.x else boxMin.x + spacing * 1 / 2) boxMax.x spacing).bind fun xs =>
      (packedRows boxMin boxMax spacing z (!evenRow) ys).bind fun rest => .ok (xs.map (fun x : ℝ => (⟨x, y, z⟩ : V3 ℝ)) ++ rest)

/-- The loop over `z` of ClosestPackingGenerator.h:47-61, with `evenLayer` as argument. -/
def packedLayers (boxMin boxMax : V3 ℝ) (spacing : ℝ) : Bool → List ℝ → Outcome (List (V3 ℝ))
  | _, [] => .ok []
  | evenLayer, z :: zs =>
    (upValues (if evenLayer then boxMin.y else boxMin.y + spacing * Real.sqrt (1 / 12)) boxMax.y (spacing * Real.sqrt (3 / 4))).bind
      fun ys => (packedRows boxMin boxMax spacing z evenLayer ys).bind fun layer =>
        (packedLayers boxMin boxMax spacing (!evenLayer) zs).bind fun rest => .ok (layer ++ rest)

/-- The positions of `ClosestPackingGenerator::fillWithParticles`, ClosestPackingGenerator.h:30-62. -/
def packedPositions (boxMin boxMax : V3 ℝ) (spacing : ℝ) : Outcome (List (V3 ℝ)) :=
  (upValues boxMin.z boxMax.z (spacing * Real.sqrt (2 / 3))).bind fun zs => packedLayers boxMin boxMax spacing true zs

/-- `UniformGenerator::randomPosition`, UniformGenerator.cpp:13-25: `u` are the three numbers in `[0, 1)` that
`std::uniform_real_distribution` scales to the interval. -/
def uniformPosition (boxMin boxMax u : V3 ℝ) : V3 ℝ :=
  ⟨u.x * (boxMax.x - boxMin.x) + boxMin.x, u.y * (boxMax.y - boxMin.y) + boxMin.y, u.z * (boxMax.z - boxMin.z) + boxMin.z⟩

/-- The positions of `UniformGenerator::fillWithParticles`, UniformGenerator.h:88-100. -/
def uniformPositions (boxMin boxMax : V3 ℝ) (draw : Nat → V3 ℝ) (numParticles : Nat) : List (V3 ℝ) :=
  (List.range numParticles).map fun (i : Nat) => uniformPosition boxMin boxMax (draw i)

/-- A value of the three `std::normal_distribution`s, GaussianGenerator.h:45-48 and 51-52; `g` are standard normal values. -/
def gaussPosition (mean stdDev g : V3 ℝ) : V3 ℝ :=
  ⟨g.x * stdDev.x + mean.x, g.y * stdDev.y + mean.y, g.z * stdDev.z + mean.z⟩

/-- `_maxAttempts`, GaussianGenerator.h:23. -/
def gaussMaxAttempts : Nat := 100

/-- The loop of GaussianGenerator.h:54-67; the first argument is `_maxAttempts - attempts`, `k` the number of values drawn before the
current position. Returns the position and the number of values drawn. -/
def gaussAttempts (boxMin boxMax : V3 ℝ) (pos : Nat → V3 ℝ) : Nat → Nat → Outcome (V3 ℝ × Nat)
  | 0, k => if inBoxReal (pos k) boxMin boxMax then .ok (pos k, k + 1) else .throws
  | left + 1, k => if inBoxReal (pos k) boxMin boxMax then .ok (pos k, k + 1) else gaussAttempts boxMin boxMax pos left (k + 1)

/-- The positions of `GaussianGenerator::fillWithParticles`, GaussianGenerator.h:38-73, starting with value `k` of the generator. -/
def gaussPositions (boxMin boxMax : V3 ℝ) (pos : Nat → V3 ℝ) : Nat → Nat → Outcome (List (V3 ℝ))
  | 0, _ => .ok []
  | n + 1, k => (gaussAttempts boxMin boxMax pos (gaussMaxAttempts - 1) k).bind fun r =>
      (gaussPositions boxMin boxMax pos n r.2).bind fun rest => .ok (r.1 :: rest)

/-- The values of `i` in `for (int i = -1; i <= 1; i += 2) { ...; if (x == 0) break; }`, Sphere.h:60-81. -/
def mirrorSigns (x : Int) : List Int := if x = 0 then [-1] else [-1, 1]

/-- A component of `_center + ((relativePos * mirrorMultipliers) * _particleSpacing)`, Sphere.h:63-66. -/
def sphereCoord (center spacing : ℝ) (x i : Int) : ℝ := center + ((x : ℝ) * (i : ℝ)) * spacing

open Classical in
/-- `Sphere::iteratePositions`, Sphere.h:50-86: the positions `f` is called with, in order. -/
def spherePositions (center : V3 ℝ) (radius : Int) (spacing : ℝ) : List (V3 ℝ) :=
  (forInt 0 radius).flatMap fun (z : Int) => (forInt 0 radius).flatMap fun (y : Int) => (forInt 0 radius).flatMap fun (x : Int) =>
    (mirrorSigns x).flatMap fun (i : Int) => (mirrorSigns y).flatMap fun (k : Int) => (mirrorSigns z).flatMap fun (l : Int) =>
      let p : V3 ℝ := ⟨sphereCoord center.x spacing x i, sphereCoord center.y spacing y k, sphereCoord center.z spacing z l⟩
      let d := (p.x - center.x) * (p.x - center.x) + (p.y - center.y) * (p.y - center.y) + (p.z - center.z) * (p.z - center.z)
      let r := ((radius : ℝ) + 1) * spacing
      if d ≤ r * r then [p] else []

/-- The five classes derived from `Object` with their constructor arguments: CubeGrid.h:28-33, CubeGauss.h:28-36, CubeUniform.h:25-30,
Sphere.h:24-26, CubeClosestPacked.h:29-37. -/
inductive ObjShape
  | cubeGrid (particlesPerDim : V3 Nat) (spacing : ℝ) (corner : V3 ℝ)
  | cubeGauss (numParticles : Nat) (boxLength mean stdDev corner : V3 ℝ)
  | cubeUniform (numParticles : Nat) (boxLength corner : V3 ℝ)
  | sphere (center : V3 ℝ) (radius : Int) (spacing : ℝ)
  | cubeClosestPacked (spacing : ℝ) (boxLength corner : V3 ℝ)

/-- An object: its class, velocity and type, Object.h:22-27. -/
structure MDObject where
  shape : ObjShape
  vel : V3 ℝ
  typeId : Nat

/-- Componentwise sum. -/
def addV (a b : V3 ℝ) : V3 ℝ := ⟨a.x + b.x, a.y + b.y, a.z + b.z⟩

/-- `getBoxMin`: CubeGrid.h:59, CubeGauss.h:60, CubeUniform.h:42, Sphere.h:102-105, CubeClosestPacked.h:71. -/
def ObjShape.boxMin : ObjShape → V3 ℝ
  | .cubeGrid _ _ corner => corner
  | .cubeGauss _ _ _ _ corner => corner
  | .cubeUniform _ _ corner => corner
  | .sphere c r s => ⟨c.x - (r : ℝ) * s, c.y - (r : ℝ) * s, c.z - (r : ℝ) * s⟩
  | .cubeClosestPacked _ _ corner => corner

/-- `getBoxMax`: CubeGrid.h:65-76, CubeGauss.h:66-69, CubeUniform.h:48-51, Sphere.h:111-114, CubeClosestPacked.h:73-76. -/
def ObjShape.boxMax : ObjShape → V3 ℝ
  | .cubeGrid n s corner => addV corner ⟨((n.x : ℝ) - 1) * s, ((n.y : ℝ) - 1) * s, ((n.z : ℝ) - 1) * s⟩
  | .cubeGauss _ len _ _ corner => addV corner len
  | .cubeUniform _ len corner => addV corner len
  | .sphere c r s => ⟨c.x + (r : ℝ) * s, c.y + (r : ℝ) * s, c.z + (r : ℝ) * s⟩
  | .cubeClosestPacked _ len corner => addV corner len

/-- `getParticleSpacing`: CubeGrid.h:39, Sphere.h:45, CubeClosestPacked.h:39, and `0` by Object.h:94. -/
def ObjShape.spacing : ObjShape → ℝ
  | .cubeGrid _ s _ => s
  | .cubeGauss .. => 0
  | .cubeUniform .. => 0
  | .sphere _ _ s => s
  | .cubeClosestPacked s _ _ => s

/-- The values of the random number generators (seeded with 42 for every object): uniform numbers in `[0, 1)`, UniformGenerator.h:91, and
standard normal numbers, GaussianGenerator.h:44. -/
structure ObjRandom where
  uniform : Nat → V3 ℝ
  normal : Nat → V3 ℝ

/-- The positions an object generates: the calls in `generate` of CubeGrid.h:98-108, CubeGauss.h:96-109, CubeUniform.h:74-86, Sphere.h:137-144,
CubeClosestPacked.h:99-108. -/
def ObjShape.positions (rnd : ObjRandom) : ObjShape → Outcome (List (V3 ℝ))
  | .cubeGrid n s corner => .ok (gridPositions n ⟨s, s, s⟩ corner)
  | .cubeGauss n len mean sd corner => gaussPositions corner (addV corner len) (fun k => gaussPosition mean sd (rnd.normal k)) n 0
  | .cubeUniform n len corner => .ok (uniformPositions corner (addV corner len) rnd.uniform n)
  | .sphere c r s => .ok (spherePositions c r s)
  | .cubeClosestPacked s len corner => packedPositions corner (addV corner len) s

/-- `generate(particles)`: append the particles of the object; ids start at the number of particles that are there. -/
def MDObject.generate (rnd : ObjRandom) (o : MDObject) (particles : List ObjParticle) : Outcome (List ObjParticle) :=
  (o.shape.positions rnd).bind fun qs =>
    .ok (particles ++ placeFrom (dummyParticle o.vel o.typeId particles.length) particles.length qs)

/-- A step of `std::accumulate(…, 1, std::multiplies<double>())` in CubeGrid.h:51-53: the accumulator is an `int`, as is the initial value,
so a product that does not fit is undefined behaviour. -/
def gridTotalStep (acc : Outcome Nat) (n : Nat) : Outcome Nat :=
  acc.bind fun a => if a * n < 2 ^ 31 then .ok (a * n) else .ub

/-- `CubeClosestPacked::getParticlesTotal`, CubeClosestPacked.h:45-69. Conversions of negative or infinite values to `size_t` and of too
large values to `int` are undefined behaviour. -/
def packedTotal (spacing : ℝ) (len : V3 ℝ) : Outcome Nat :=
  let xNumRow := ⌈len.x / spacing⌉
  let xAll := ⌈len.x / (spacing * 1 / 2)⌉
  let xOdd : Int := if xAll % 2 = 1 then 1 else 0
  let yNumEven := ⌈len.y / (spacing * Real.sqrt (3 / 4))⌉
  let yNumOdd := ⌈(len.y - spacing * Real.sqrt (1 / 12)) / (spacing * Real.sqrt (3 / 4))⌉
  let evenLayer := xNumRow * yNumEven - (xOdd * yNumEven) / 2
  let oddLayer := xNumRow * yNumOdd - (xOdd * yNumOdd + 1) / 2
  let numLayers := ⌈len.z / (spacing * Real.sqrt (2 / 3))⌉
  if spacing = 0 ∨ xNumRow < 0 ∨ 2 ^ 31 ≤ xAll ∨ xAll < - 2 ^ 31 ∨ yNumEven < 0 ∨ yNumOdd < 0 ∨ numLayers < 0 then .ub
  else .ok (evenLayer * ((numLayers + 1) / 2) + oddLayer * (numLayers / 2)).toNat

/-- `getParticlesTotal`: CubeGrid.h:51-53, CubeGauss.h:54, CubeUniform.h:36, Sphere.h:91-96, CubeClosestPacked.h:45-69. -/
def ObjShape.total : ObjShape → Outcome Nat
  | .cubeGrid n _ _ => gridTotalStep (gridTotalStep (gridTotalStep (.ok 1) n.x) n.y) n.z
  | .cubeGauss n _ _ _ _ => .ok n
  | .cubeUniform n _ _ => .ok n
  | .sphere c r s => .ok (spherePositions c r s).length
  | .cubeClosestPacked s len _ => packedTotal s len

/-- The object collections of `MDFlexConfig`, the box given by the user and the interaction length. -/
structure ObjConfig where
  grids : List MDObject
  gausses : List MDObject
  uniforms : List MDObject
  spheres : List MDObject
  packed : List MDObject
  boxMin : V3 ℝ
  boxMax : V3 ℝ
  interactionLength : ℝ

/-- `generate` of a list of objects, one after the other, MDFlexConfig.cpp:620-634. -/
def generateAll (rnd : ObjRandom) : List MDObject → List ObjParticle → Outcome (List ObjParticle)
  | [], ps => .ok ps
  | o :: os, ps => (o.generate rnd ps).bind (generateAll rnd os)

/-- `initializeObjects` on rank 0, MDFlexConfig.cpp:614-636. -/
def ObjConfig.initializeObjects (rnd : ObjRandom) (c : ObjConfig) : Outcome (List ObjParticle) :=
  (generateAll rnd c.grids []).bind fun ps => (generateAll rnd c.gausses ps).bind fun ps =>
    (generateAll rnd c.uniforms ps).bind fun ps => (generateAll rnd c.spheres ps).bind fun ps => generateAll rnd c.packed ps

/-- The body of `resizeToObjectLimits`, MDFlexConfig.cpp:462-473. -/
def enlargeFor (b : V3 ℝ × V3 ℝ) (o : MDObject) : V3 ℝ × V3 ℝ :=
  let lo := o.shape.boxMin
  let hi := o.shape.boxMax
  let s := o.shape.spacing
  (⟨min b.1.x (lo.x - s / 2), min b.1.y (lo.y - s / 2), min b.1.z (lo.z - s / 2)⟩,
    ⟨max b.2.x (hi.x + s / 2), max b.2.y (hi.y + s / 2), max b.2.z (hi.z + s / 2)⟩)

open Classical in
/-- One dimension of the last loop of `calcSimulationBox`, MDFlexConfig.cpp:487-495. -/
def enlargeAxis (il lo hi : ℝ) : ℝ × ℝ := if hi - lo < il then (lo - il / 2, hi + il / 2) else (lo, hi)

/-- `calcSimulationBox`, MDFlexConfig.cpp:454-497. -/
def ObjConfig.simulationBox (c : ObjConfig) : V3 ℝ × V3 ℝ :=
  let b := c.packed.foldl enlargeFor (c.spheres.foldl enlargeFor (c.uniforms.foldl enlargeFor (c.grids.foldl enlargeFor
    (c.gausses.foldl enlargeFor (c.boxMin, c.boxMax)))))
  let ex := enlargeAxis c.interactionLength b.1.x b.2.x
  let ey := enlargeAxis c.interactionLength b.1.y b.2.y
  let ez := enlargeAxis c.interactionLength b.1.z b.2.z
  (⟨ex.1, ey.1, ez.1⟩, ⟨ex.2, ey.2, ez.2⟩)

end

end Verif
