import Verif.Model.Iterator
import Verif.Model.Outcome
import Verif.Model.Mapping
import Mathlib.Algebra.Order.Field.Rat
import Mathlib.Data.Rat.Floor
import Mathlib.Data.Nat.Find
import Mathlib.Analysis.Real.Sqrt
/-!
`LiveInfo::gather` (/repo/src/autopas/tuning/tuningStrategy/LiveInfo.h:83-219) and `calculateHomogeneityAndMaxDensity`
(/repo/src/autopas/utils/SimilarityFunctions.h:46-134): what the tuning strategies are told about the particles.

Simplified: `double` is exact (`Rat`, reals where square roots are taken); `int` does not overflow except where said; no vector has more
elements than fit into an `int`.
-/
namespace Verif

/-- What `gather` sees of the container: box, cutoff, skin and the stored particles. -/
structure LiveContainer where
  boxMin : V3 Rat
  boxMax : V3 Rat
  cutoff : Rat
  skin : Rat
  particles : List Particle

namespace LiveContainer

/-- `getNumberOfParticles()` with its default behaviour `owned`, /repo/src/autopas/containers/ParticleContainerInterface.h:184. -/
def numOwned (c : LiveContainer) : Nat := (c.particles.filter fun p => decide (p.own = .owned)).length

/-- The particles of the loop `for (const Particle &particle : container)`: `begin()` has the default behaviour `ownedOrHalo`,
ParticleContainerInterface.h:208-210. -/
def visited (c : LiveContainer) : List Particle := c.particles.filter fun p => decide (p.own ≠ .dummy)

/-- `domainSize`, LiveInfo.h:98, and `domainDimensions`, SimilarityFunctions.h:51. -/
def domainSize (c : LiveContainer) : V3 Rat := ⟨c.boxMax.x - c.boxMin.x, c.boxMax.y - c.boxMin.y, c.boxMax.z - c.boxMin.z⟩

/-- `cellsPerDim`, LiveInfo.h:107. -/
def cellsPerDim (c : LiveContainer) : V3 Int :=
  ⟨⌈c.domainSize.x * (1 / c.cutoff)⌉, ⌈c.domainSize.y * (1 / c.cutoff)⌉, ⌈c.domainSize.z * (1 / c.cutoff)⌉⟩

/-- `floorToInt` of a vector, /repo/src/autopas/utils/ArrayMath.h:331-338, and the index of LiveInfo.h:124 and :129. -/
def binIndex (cell : V3 Rat) (dims : V3 Int) : Int := (⌊cell.z⌋ * dims.y + ⌊cell.y⌋) * dims.x + ⌊cell.x⌋

/-- The bin counted up for a particle, LiveInfo.h:120-125, :131-134: `particleBins.back()` has index `numCells`. -/
def binOf (c : LiveContainer) (numCells : Nat) (p : Particle) : Int :=
  if inBoxB p.pos c.boxMin c.boxMax then
    binIndex ⟨(p.pos.x - c.boxMin.x) * (1 / c.cutoff), (p.pos.y - c.boxMin.y) * (1 / c.cutoff), (p.pos.z - c.boxMin.z) * (1 / c.cutoff)⟩
      c.cellsPerDim
  else numCells

/-- The blurred bin of a particle in the box, LiveInfo.h:118, :128-129. -/
def blurredBinOf (c : LiveContainer) (p : Particle) : Int :=
  binIndex ⟨(p.pos.x - c.boxMin.x) * (3 / c.domainSize.x), (p.pos.y - c.boxMin.y) * (3 / c.domainSize.y),
    (p.pos.z - c.boxMin.z) * (3 / c.domainSize.z)⟩ ⟨3, 3, 3⟩

end LiveContainer

/-- `bins[i]++`; outside of the vector this is undefined. -/
def bumpBin (bins : List Nat) (i : Int) : Outcome (List Nat) :=
  if 0 ≤ i ∧ i < bins.length then .ok (bins.modify i.toNat (· + 1)) else .ub

/-- The loop over the particles, LiveInfo.h:119-135. The two vectors are independent of each other; each is one loop here. -/
def bumpAll (f : Particle → Int) : List Particle → List Nat → Outcome (List Nat)
  | [], bins => .ok bins
  | p :: ps, bins => (bumpBin bins (f p)).bind (bumpAll f ps)

/-- What `gather` stores; `none` for a `double` that is not a number. -/
structure LiveInfoValues where
  numParticles : Nat
  numHaloParticles : Nat
  numCells : Nat
  numEmptyCells : Nat
  maxParticlesPerCell : Nat
  minParticlesPerCell : Nat
  avgParticlesPerCell : Rat
  estimatedNumNeighborInteractions : Nat
  particlesPerCellStdDev : Option ℝ
  particlesPerBlurredCellStdDev : Option ℝ
  homogeneity : ℝ
  maxDensity : Rat

/-- Subtraction of `size_t`. -/
def sizeSub (a b : Nat) : Nat := (a + (2 ^ 64 - b % 2 ^ 64)) % 2 ^ 64

/-- `avgParticlesPerCell` and `avgParticlesPerBlurredCell`, LiveInfo.h:140-147. -/
def liveAverage (numOwned outside numBins : Nat) : Rat :=
  if numOwned = 0 then 0 else (sizeSub numOwned outside : Rat) / numBins

/-- `sumStddev` and `sumStddevBlurred`, LiveInfo.h:170-172, :198-205. -/
def liveSquares (avg : Rat) (bins : List Nat) : Rat := bins.foldl (fun (s : Rat) (n : Nat) => s + (avg - n) * (avg - n)) 0

/-- `particlesPerCellStdDev`, LiveInfo.h:187-189, and `particlesPerBlurredCellStdDev`, :206-209. -/
noncomputable def liveStdDev (numOwned : Nat) (avg : Rat) (bins : List Nat) : Option ℝ :=
  if numOwned = 0 then some 0 else if avg = 0 then none else some (Real.sqrt (liveSquares avg bins : ℝ) / bins.length / avg)

/-- `estimatedNumNeighborInteractions`, LiveInfo.h:163-167, :174, :196. -/
def liveEstimate (bins : List Nat) : Nat :=
  ⌊(bins.foldl (fun s n => if n = 0 then s else s + ((n * (n * 27 - 1) : Nat) : Rat) * (155 / 1000)) 0) / 2⌋.toNat

/-! ### Homogeneity -/

/-- `floor(cbrt(m))` for a natural number `m`, SimilarityFunctions.h:57-59. Simplified: `std::cbrt` is exact. -/
def cubeRootFloor (m : Nat) : Nat := Nat.findGreatest (fun k => k ^ 3 ≤ m) m

/-- `targetNumberOfBins`, SimilarityFunctions.h:56, and `numberOfBinsPerDim`, :59. -/
def homogeneityBinsPerDim (numOwned : Nat) : Nat := cubeRootFloor ⌈(numOwned : Rat) / 10⌉.toNat

namespace LiveContainer

/-- The clamped index in one dimension, SimilarityFunctions.h:83-87; the condition of :84 (with `or`) decides about the exception. -/
def homogeneityIndex1 (lo hi r : Rat) (k : Nat) : Outcome Int :=
  if r > lo ∨ r < hi then .ok (max 0 (min ⌊(r - lo) / ((hi - lo) / k)⌋ ((k : Int) - 1))) else .throws

/-- `binIndex1d`, SimilarityFunctions.h:71-97. -/
def homogeneityBin (c : LiveContainer) (k : Nat) (p : Particle) : Outcome Int :=
  (homogeneityIndex1 c.boxMin.x c.boxMax.x p.pos.x k).bind fun x =>
    (homogeneityIndex1 c.boxMin.y c.boxMax.y p.pos.y k).bind fun y =>
      (homogeneityIndex1 c.boxMin.z c.boxMax.z p.pos.z k).bind fun z => .ok (threeToOneDInt x y z ⟨k, k, k⟩)

/-- The loop over the owned particles, SimilarityFunctions.h:68-100. -/
def homogeneityBins (c : LiveContainer) (k : Nat) : List Particle → List Nat → Outcome (List Nat)
  | [], bins => .ok bins
  | p :: ps, bins => (c.homogeneityBin k p).bind fun i => (bumpBin bins i).bind (homogeneityBins c k ps)

/-- `calculateHomogeneityAndMaxDensity`, SimilarityFunctions.h:46-134. The exceptions for negative results are left out: both numbers
start from 0 or are square roots. -/
noncomputable def homogeneityAndMaxDensity (c : LiveContainer) : Outcome (ℝ × Rat) :=
  let n := c.numOwned
  let volume := c.domainSize.x * c.domainSize.y * c.domainSize.z
  let k := homogeneityBinsPerDim n
  let numBins := k * k * k
  let binVolume := volume / numBins
  (c.homogeneityBins k (c.particles.filter fun p => decide (p.own = .owned)) (List.replicate numBins 0)).bind fun bins =>
    let density := bins.map fun (m : Nat) => (m : Rat) / binVolume
    let maxDensity := density.foldl (fun a d => max a d) 0
    let mean := (n : Rat) / volume
    let squares := density.foldl (fun s d => s + (d - mean) * (d - mean)) 0
    let variance := squares / numBins
    .ok (if n = 0 then 0 else Real.sqrt (variance : ℝ), maxDensity)

/-- `gather`, LiveInfo.h:83-219. The product of the numbers of cells per dimension is a product of `int`, :108. What only copies a
parameter (`cutoff`, `skin`, `rebuildFrequency`, the sizes of the domain, of a particle and the number of threads) is left out. -/
noncomputable def gather (c : LiveContainer) : Outcome LiveInfoValues :=
  let dims := c.cellsPerDim
  if 2 ^ 31 ≤ dims.x * dims.y ∨ 2 ^ 31 ≤ dims.x * dims.y * dims.z then .ub else
  let numCells := (dims.x * dims.y * dims.z).toNat
  (bumpAll (c.binOf numCells) c.visited (List.replicate (numCells + 1) 0)).bind fun bins =>
    (bumpAll c.blurredBinOf (c.visited.filter fun p => inBoxB p.pos c.boxMin c.boxMax) (List.replicate 27 0)).bind fun blurred =>
      let outside := bins.getD numCells 0
      let cells := bins.dropLast
      let avg := liveAverage c.numOwned outside numCells
      let avgBlurred := liveAverage c.numOwned outside blurred.length
      c.homogeneityAndMaxDensity.bind fun h =>
        .ok {
          numParticles := c.numOwned
          numHaloParticles := outside
          numCells := numCells
          numEmptyCells := cells.countP fun n => decide (n = 0)
          maxParticlesPerCell := cells.foldl (fun a n => max n a) 0
          minParticlesPerCell := cells.foldl (fun a n => min n a) (2 ^ 64 - 1)
          avgParticlesPerCell := avg
          estimatedNumNeighborInteractions := liveEstimate cells
          particlesPerCellStdDev := liveStdDev c.numOwned avg cells
          particlesPerBlurredCellStdDev := liveStdDev c.numOwned avgBlurred blurred
          homogeneity := h.1
          maxDensity := h.2 }

end LiveContainer
end Verif
