import Verif.Model.Outcome
/-!
Model of /repo/src/autopas/utils/SoA.h, SoAView.h, SoAStorage.h, of loading and extracting cells (`SoALoader`, `SoAExtractor` of
/repo/src/autopas/baseFunctors/Functor.h) and of its callers. Attributes are the numbers `0 .. width - 1` of the arrays in the tuple `SoAArraysType`; all values
are of one type `V`, and `Zero V` is what `resize` fills in (value-initialisation). Memory is not exhausted (`resize`, `insert` do not throw).
-/
namespace Verif

variable {V : Type}

/-- `SoA`, SoA.h:280: one vector for each attribute. -/
structure SoAArrays (V : Type) where
  width : Nat
  col : Nat → List V

/-- `std::vector::resize`. -/
def vecResize [Zero V] (l : List V) (n : Nat) : List V := l.take n ++ List.replicate (n - l.length) 0

namespace SoAArrays

/-- `SoA()`, SoA.h:33. -/
def empty (width : Nat) : SoAArrays V := ⟨width, fun _ => []⟩

/-- `resizeArrays`, SoA.h:45-47. -/
def resize [Zero V] (s : SoAArrays V) (n : Nat) : SoAArrays V := { s with col := fun a => vecResize (s.col a) n }

/-- `size`, SoA.h:177-181: the length of the longest array. -/
def size (s : SoAArrays V) : Nat := (List.range s.width).foldl (fun m a => max m (s.col a).length) 0

/-- `push`, SoA.h:54-57: appends to one array only. -/
def push (s : SoAArrays V) (a : Nat) (v : V) : SoAArrays V := { s with col := fun b => if b = a then s.col b ++ [v] else s.col b }

/-- `write`, SoA.h:66-69; `at` throws `std::out_of_range`. -/
def write (s : SoAArrays V) (a i : Nat) (v : V) : Outcome (SoAArrays V) :=
  if i < (s.col a).length then .ok { s with col := fun b => if b = a then (s.col b).set i v else s.col b } else .throws

/-- `writeMultiple`, `write_impl`, SoA.h:112-127, 237-245, for pairs of attribute and value. -/
def writeMultiple (s : SoAArrays V) (i : Nat) : List (Nat × V) → Outcome (SoAArrays V)
  | [] => .ok s
  | (a, v) :: l => (s.write a i v).bind fun s' => s'.writeMultiple i l

/-- `read`, SoA.h:155-158. -/
def read (s : SoAArrays V) (a i : Nat) : Outcome V := match (s.col a)[i]? with | some v => .ok v | none => .throws

/-- `read_impl`, SoA.h:225-233. -/
def readImpl (s : SoAArrays V) (i : Nat) : List Nat → Outcome (List V)
  | [] => .ok []
  | a :: l => (s.read a i).bind fun v => (s.readImpl i l).bind fun vs => .ok (v :: vs)

/-- `readMultiple`, SoA.h:137-147. -/
def readMultiple (s : SoAArrays V) (attrs : List Nat) (i : Nat) : Outcome (List V) := if i ≥ s.size then .throws else s.readImpl i attrs

/-- `appendSingleArray`, SoA.h:248-253. -/
def appendSingle (o s : SoAArrays V) (a : Nat) : SoAArrays V := { s with col := fun b => if b = a then s.col b ++ o.col b else s.col b }

/-- `append` of all attributes, SoA.h:75-79, `append_impl`, :264-268. The other SoA is another object. -/
def append (s o : SoAArrays V) : SoAArrays V := if o.size > 0 then (List.range s.width).foldl (appendSingle o) s else s

/-- `append<attributes...>`, SoA.h:96-103. -/
def appendSome [Zero V] (attrs : List Nat) (s o : SoAArrays V) : SoAArrays V :=
  if o.size > 0 then
    let newSize := s.size + o.size
    (attrs.foldl (appendSingle o) s).resize newSize
  else s

/-- `appendSingleArray` of a view, SoA.h:256-261: `n` values from `start` on; reading past the end of the array is undefined. -/
def appendSlice (o : SoAArrays V) (start n : Nat) (s : SoAArrays V) (a : Nat) : Outcome (SoAArrays V) :=
  if start + n ≤ (o.col a).length then .ok { s with col := fun b => if b = a then s.col b ++ ((o.col b).drop start).take n else s.col b } else .ub

/-- `append` of the view `[start, stop)` of another SoA: construction of the view, SoAView.h:39-44, and SoA.h:85-89, 271-275. -/
def appendView (s o : SoAArrays V) (start stop : Nat) : Outcome (SoAArrays V) :=
  if o.size ≥ stop ∧ stop ≥ start then
    if stop - start > 0 then (List.range s.width).foldl (fun r a => r.bind fun s' => appendSlice o start (stop - start) s' a) (.ok s) else .ok s
  else .throws

/-- `clear`, SoA.h:186-188. -/
def clear (s : SoAArrays V) : SoAArrays V := { s with col := fun _ => [] }

/-- `std::swap(list[a], list[b])`. -/
def vecSwap (l : List V) (i j : Nat) : List V :=
  match l[i]?, l[j]? with
  | some x, some y => (l.set i y).set j x
  | _, _ => l

/-- `swap`, SoA.h:195-197; an index past the end of an array is undefined. -/
def swap (s : SoAArrays V) (i j : Nat) : Outcome (SoAArrays V) :=
  if ∀ a < s.width, i < (s.col a).length ∧ j < (s.col a).length then .ok { s with col := fun a => vecSwap (s.col a) i j } else .ub

/-- `pop_back`, SoA.h:202-204; undefined for an empty array. -/
def popBack (s : SoAArrays V) : Outcome (SoAArrays V) :=
  if ∀ a < s.width, 0 < (s.col a).length then .ok { s with col := fun a => (s.col a).dropLast } else .ub

end SoAArrays

/-! ### Loading and extracting cells -/

/-- A particle as its attributes (`get<attribute>`, `set<attribute>`, e.g. /repo/src/autopas/particles/ParticleBase.h). -/
abbrev AttrParticle (V : Type) := Nat → V

/-- `std::get<I>(pointer)[i] = ...`, Functor.h:228. -/
def SoAArrays.poke (s : SoAArrays V) (i a : Nat) (v : V) : Outcome (SoAArrays V) :=
  if i < (s.col a).length then .ok { s with col := fun b => if b = a then (s.col b).set i v else s.col b } else .ub

/-- All needed attributes of one particle, Functor.h:228. -/
def SoAArrays.loadParticle (needed : List Nat) (s : SoAArrays V) (i : Nat) (p : AttrParticle V) : Outcome (SoAArrays V) :=
  needed.foldl (fun r a => r.bind fun s' => s'.poke i a (p a)) (.ok s)

/-- The loop over the cell, Functor.h:218-229. -/
def SoAArrays.loadLoop (needed : List Nat) : List (AttrParticle V) → Nat → SoAArrays V → Outcome (SoAArrays V)
  | [], _, s => .ok s
  | p :: ps, i, s => (s.loadParticle needed i p).bind fun s' => SoAArrays.loadLoop needed ps (i + 1) s'

/-- `SoALoader`, `SoALoaderImpl`, Functor.h:111-114, 202-230. -/
def soaLoader [Zero V] (needed : List Nat) (cell : List (AttrParticle V)) (s : SoAArrays V) (offset : Nat) (skipResize : Bool) : Outcome (SoAArrays V) :=
  let s := if skipResize then s else s.resize (offset + cell.length)
  if cell.isEmpty then .ok s else SoAArrays.loadLoop needed cell offset s

/-- `cellIter->set<attr>(std::get<I>(pointer)[i])`, Functor.h:262. -/
def SoAArrays.extractAttr (s : SoAArrays V) (i a : Nat) (q : AttrParticle V) : Outcome (AttrParticle V) :=
  match (s.col a)[i]? with
  | some v => .ok fun b => if b = a then v else q b
  | none => .ub

/-- All computed attributes of one particle, Functor.h:262. -/
def SoAArrays.extractParticle (s : SoAArrays V) (computed : List Nat) (i : Nat) (p : AttrParticle V) : Outcome (AttrParticle V) :=
  computed.foldl (fun r a => r.bind (s.extractAttr i a)) (.ok p)

/-- `SoAExtractor`, `SoAExtractorImpl`, Functor.h:124-128, 240-264. -/
def soaExtractor (computed : List Nat) (s : SoAArrays V) : List (AttrParticle V) → Nat → Outcome (List (AttrParticle V))
  | [], _ => .ok []
  | p :: ps, i => (s.extractParticle computed i p).bind fun q => (soaExtractor computed s ps (i + 1)).bind fun qs => .ok (q :: qs)

/-- Conversion of `size_t` to `int` and back to `size_t` (two's complement): what happens to the sums below. -/
def intSum (n : Nat) : Nat :=
  let m := n % 2 ^ 32
  if m < 2 ^ 31 then m else 2 ^ 64 - 2 ^ 32 + m

/-- The offsets of the cells: `std::inclusive_scan` with the initial value `0`, an `int`, so that each sum is stored in an `int`
(/repo/src/autopas/containers/verletListsCellBased/verletLists/traversals/VLListIterationTraversal.h:49-52,
.../verletListsCells/neighborLists/VLCNeighborListInterface.h:74-77, .../varVerletLists/neighborLists/asBuild/VerletNeighborListAsBuild.h:206-209). -/
def soaOffsetsFrom (acc : Nat) : List Nat → List Nat
  | [] => [acc]
  | n :: ns => acc :: soaOffsetsFrom (intSum ((acc + n) % 2 ^ 64)) ns

/-- `offsets` of the vector of cells: `cells.size() + 1` entries, the first is `0`. -/
def soaCellOffsets (cells : List (List (AttrParticle V))) : List Nat := soaOffsetsFrom 0 (cells.map List.length)

/-- `initTraversal`, VLListIterationTraversal.h:44-61, and `loadSoA`, VLCNeighborListInterface.h:68-86, VerletNeighborListAsBuild.h:198-219: the arrays are resized
once, then the cells are loaded in parallel: in any order `order` of their indices. `resize` throws `std::length_error` for more than `PTRDIFF_MAX` elements. -/
def soaLoadCells [Zero V] (needed : List Nat) (cells : List (List (AttrParticle V))) (order : List Nat) (s : SoAArrays V) : Outcome (SoAArrays V) :=
  let offsets := soaCellOffsets cells
  if offsets.getLastD 0 ≥ 2 ^ 63 then .throws
  else order.foldl (fun r i => r.bind fun s' => soaLoader needed (cells.getD i []) s' (offsets.getD i 0) true) (.ok (s.resize (offsets.getLastD 0)))

/-- `endTraversal`, VLListIterationTraversal.h:63-72, `extractSoA`, VLCNeighborListInterface.h:93-100, VerletNeighborListAsBuild.h:226-232. -/
def soaExtractCells (computed : List Nat) (s : SoAArrays V) : List (List (AttrParticle V)) → Nat → Outcome (List (List (AttrParticle V)))
  | [], _ => .ok []
  | c :: cs, off => (soaExtractor computed s c off).bind fun c' => (soaExtractCells computed s cs (off + c.length)).bind fun cs' => .ok (c' :: cs')

/-- `getNeededAttr()` and `getComputedAttr()` of the functors with names of the attributes. -/
structure FunctorAttrs where
  needed : List String
  computed : List String

/-- The functors, cited one by one. -/
def functorAttrs : List FunctorAttrs :=
  let pos := ["posX", "posY", "posZ"]
  let force := ["forceX", "forceY", "forceZ"]
  let torque := ["torqueX", "torqueY", "torqueZ"]
  let md : FunctorAttrs := ⟨["id"] ++ pos ++ force ++ ["typeId", "ownershipState"], force⟩
  let generator : FunctorAttrs := ⟨"ptr" :: pos, []⟩
  [ md, -- /repo/applicationLibrary/molecularDynamics/molecularDynamicsLibrary/LJFunctor.h:601-623
    md, -- .../LJFunctorAVX.h:820-842
    md, -- .../LJFunctorSVE.h:698-720
    md, -- .../AxilrodTellerFunctor.h:302-324
    -- .../LJMultisiteFunctor.h:641-675
    ⟨["id"] ++ pos ++ force ++ ["quaternion0", "quaternion1", "quaternion2", "quaternion3"] ++ torque ++ ["typeId", "ownershipState"], force ++ torque⟩,
    -- /repo/applicationLibrary/sph/SPHLibrary/SPHCalcDensityFunctor.h:257-278
    ⟨["mass"] ++ pos ++ ["smth", "density", "ownershipState"], ["density"]⟩,
    -- .../SPHCalcHydroForceFunctor.h:501-534
    ⟨["mass", "density", "smth", "soundSpeed", "pressure", "vsigmax", "engDot"] ++ pos ++ ["velX", "velY", "velZ", "accX", "accY", "accZ", "ownershipState"],
      ["vsigmax", "engDot", "accX", "accY", "accZ", "ownershipState"]⟩,
    generator, -- VLCCellPairGeneratorFunctor.h:201-219
    generator, -- VLCAllCellsGeneratorFunctor.h:271-289
    generator, -- VerletListHelpers.h:170-181
    generator ] -- AsBuildPairGeneratorFunctor.h:40-58

end Verif
