import Verif.Model.Num
import Verif.Model.Ownership
import Verif.Model.LCInteract
/-!
Model of /repo/applicationLibrary/molecularDynamics/molecularDynamicsLibrary/LJFunctor.h, function by function: the AoS kernel, the three
SoA kernels, the sums over all threads and the getters. The counters of the template parameter `countFLOPs` are in Model/LJFlops.lean.

The attributes a kernel only reads (position, type, ownership) are in `Mol`, the forces it changes are kept apart. An array of forces of a
SoA view is a function from indices; the loops stay below the length of the view.
-/
namespace Verif

/-- What the functor reads of a particle, LJFunctor.h:601-606. -/
structure Mol (K : Type) where
  pos : V3 K
  type : Nat
  own : Ownership
deriving DecidableEq

/-- The state of an `LJFunctor` that does not change in a traversal, LJFunctor.h:1195-1199, with its template parameters `applyShift`
and `useMixing` (:36). `mixing i j` is `getLJMixingData(i, j)` of the particle properties library. -/
structure LJCfg (K : Type) where
  applyShift : Bool
  useMixing : Bool
  cutoffSquared : K
  epsilon24 : K
  sigmaSquared : K
  shift6 : K
  mixEpsilon24 : Nat → Nat → K
  mixSigmaSquared : Nat → Nat → K
  mixShift6 : Nat → Nat → K

section
variable {K : Type} [Field K] [LinearOrder K]

/-- The local variable `sigmaSquared`, e.g. LJFunctor.h:133-137, 274-277. -/
def LJCfg.sig (c : LJCfg K) (ti tj : Nat) : K := if c.useMixing then c.mixSigmaSquared ti tj else c.sigmaSquared

/-- The local variable `epsilon24`, e.g. LJFunctor.h:134-138, 275-278. -/
def LJCfg.eps (c : LJCfg K) (ti tj : Nat) : K := if c.useMixing then c.mixEpsilon24 ti tj else c.epsilon24

/-- The local variable `shift6`, e.g. LJFunctor.h:135-141, 273-281. -/
def LJCfg.shift (c : LJCfg K) (ti tj : Nat) : K :=
  if c.useMixing then (if c.applyShift then c.mixShift6 ti tj else c.shift6) else c.shift6

/-- `AoSThreadDataGlobals`, LJFunctor.h:1115-1130. -/
structure LJGlobals (K : Type) where
  virialSum : V3 (Num K)
  potentialEnergySum : Num K
deriving DecidableEq

/-- `AoSThreadDataGlobals()` and `setZero()`, LJFunctor.h:1117-1121. -/
def LJGlobals.zero : LJGlobals K := ⟨0, 0⟩

/-- `+=` on both sums. -/
def LJGlobals.plus (g : LJGlobals K) (virial : V3 (Num K)) (upot : Num K) : LJGlobals K :=
  ⟨g.virialSum + virial, g.potentialEnergySum + upot⟩

/-- What a call of the AoS kernel gives for two particles that are not skipped: `f`, `virial`, `potentialEnergy6`, LJFunctor.h:143-156,
175-176. -/
def ljKernelAoS (c : LJCfg K) (i j : Mol K) : V3 (Num K) × V3 (Num K) × Num K :=
  let dr := i.pos - j.pos
  let dr2 := dr.inner dr
  let invdr2 : Num K := .fin 1 / .fin dr2
  let lj2 := .fin (c.sig i.type j.type) * invdr2
  let lj6 := lj2 * lj2 * lj2
  let lj12 := lj6 * lj6
  let lj12m6 := lj12 - lj6
  let fac := .fin (c.eps i.type j.type) * (lj12 + lj12m6) * invdr2
  let f := dr.fin.scale fac
  (f, dr.fin * f, .fin (c.eps i.type j.type) * lj12m6 + .fin (c.shift i.type j.type))

/-- `AoSFunctor(i, j, newton3)`, LJFunctor.h:120-195, for `calculateGlobals`: what is added to the force of `i` and of `j` and to the
sums of the thread; `none`: it returns early (:123, :146). -/
def ljAoS (c : LJCfg K) (newton3 : Bool) (i j : Mol K) : Option (V3 (Num K) × V3 (Num K) × V3 (Num K) × Num K) :=
  if i.own = .dummy ∨ j.own = .dummy then none
  else if c.cutoffSquared < (i.pos - j.pos).inner (i.pos - j.pos) then none
  else
    let k := ljKernelAoS c i j
    let times : V3 (Num K) × Num K :=
      ((if i.own = .owned then k.2.1 else 0) + (if newton3 = true ∧ j.own = .owned then k.2.1 else 0),
        (if i.own = .owned then k.2.2 else 0) + (if newton3 = true ∧ j.own = .owned then k.2.2 else 0))
    some (k.1, if newton3 then -k.1 else 0, times.1, times.2)

/-- Forces of all particles and the sums of the thread. -/
structure LJState (P K : Type) where
  force : P → V3 (Num K)
  globals : LJGlobals K

/-- `AoSFunctor` on particles in memory: `i.addF(f)`, `j.subF(f)` and the sums, LJFunctor.h:157-185. -/
def ljAoSCall {P : Type} [DecidableEq P] (c : LJCfg K) (mol : P → Mol K) (s : LJState P K) (call : PairCall P) : LJState P K :=
  match ljAoS c call.newton3 (mol call.p) (mol call.q) with
  | none => s
  | some (fi, fj, vir, upot) =>
    let f1 := Function.update s.force call.p (s.force call.p + fi)
    ⟨Function.update f1 call.q (f1 call.q + fj), s.globals.plus vir upot⟩

/-- A sequence of calls by one thread. -/
def ljRun {P : Type} [DecidableEq P] (c : LJCfg K) (mol : P → Mol K) (s : LJState P K) (calls : List (PairCall P)) : LJState P K :=
  calls.foldl (ljAoSCall c mol) s

/-- The body of the inner loops of the SoA kernels up to the force, LJFunctor.h:284-309, 473-498 and 919-944: `fx, fy, fz`, the virial and
`potentialEnergy6`. Nothing is skipped, `mask` multiplies. -/
def ljKernelSoA (c : LJCfg K) (i j : Mol K) : V3 (Num K) × V3 (Num K) × Num K :=
  let dr := i.pos - j.pos
  let dr2 := dr.x * dr.x + dr.y * dr.y + dr.z * dr.z
  let mask : Num K := .ofBool (decide (dr2 ≤ c.cutoffSquared ∧ j.own ≠ .dummy))
  let invdr2 : Num K := .fin 1 / .fin dr2
  let lj2 := .fin (c.sig i.type j.type) * invdr2
  let lj6 := lj2 * lj2 * lj2
  let lj12 := lj6 * lj6
  let lj12m6 := lj12 - lj6
  let fac := mask * .fin (c.eps i.type j.type) * (lj12 + lj12m6) * invdr2
  let f := dr.fin.scale fac
  (f, dr.fin * f, mask * (.fin (c.eps i.type j.type) * lj12m6 + .fin (c.shift i.type j.type)))

/-- `energyFactor`, LJFunctor.h:332-333, 525-527, 972-974. -/
def ljEnergyFactor (both : Bool) (i j : Mol K) : Num K :=
  (if i.own = .owned then .fin 1 else .fin 0) + (if both then (if j.own = .owned then .fin 1 else .fin 0) else .fin 0)

/-- An array of forces of a SoA. -/
abbrev ForceArr (K : Type) := Nat → V3 (Num K)

/-- The variables of an inner loop: `fx1ptr` .. are not touched in it, `force` is the array of the second particles (`fx2ptr` ..), `acc` is
`fxacc, fyacc, fzacc`, `sums` are `potentialEnergySum, virialSumX` ... -/
structure LJInner (K : Type) where
  force : ForceArr K
  acc : V3 (Num K)
  sums : LJGlobals K

/-- One iteration of the inner loop of `SoAFunctorSingle` and `SoAFunctorPairImpl`, LJFunctor.h:272-344, 464-541. `write`: the force of
particle `j` is changed; `both`: `energyFactor` counts particle `j`. -/
def ljInner (c : LJCfg K) (write both : Bool) (i : Mol K) (mol : Nat → Mol K) (s : LJInner K) (j : Nat) : LJInner K :=
  let k := ljKernelSoA c i (mol j)
  let e := ljEnergyFactor both i (mol j)
  { force := if write then Function.update s.force j (s.force j - k.1) else s.force
    acc := s.acc + k.1
    sums := s.sums.plus ⟨k.2.1.x * e, k.2.1.y * e, k.2.1.z * e⟩ (k.2.2 * e) }

/-- One iteration of the outer loop of `SoAFunctorSingle`, LJFunctor.h:248-349. -/
def ljSingleOuter (c : LJCfg K) (mol : Nat → Mol K) (n : Nat) (s : ForceArr K × LJGlobals K) (i : Nat) : ForceArr K × LJGlobals K :=
  if (mol i).own = .dummy then s
  else
    let r := (List.range' (i + 1) (n - (i + 1))).foldl (ljInner c true true (mol i) mol) ⟨s.1, 0, s.2⟩
    (Function.update r.force i (r.force i + r.acc), r.sums)

/-- `SoAFunctorSingle(soa, newton3)`, LJFunctor.h:202-364; the argument `newton3` is not used. The sums of the loop are added to those of
the thread (:359-362). -/
def ljSoASingle (c : LJCfg K) (mol : Nat → Mol K) (n : Nat) (force : ForceArr K) (g : LJGlobals K) : ForceArr K × LJGlobals K :=
  if n = 0 then (force, g)
  else
    let r := (List.range n).foldl (ljSingleOuter c mol n) (force, .zero)
    (r.1, g.plus r.2.virialSum r.2.potentialEnergySum)

/-- One iteration of the outer loop of `SoAFunctorPairImpl<newton3>`, LJFunctor.h:440-545. The arrays of the two SoAs do not overlap
(`__restrict`, :391-406). -/
def ljPairOuter (c : LJCfg K) (newton3 : Bool) (mol₁ mol₂ : Nat → Mol K) (n₂ : Nat) (s : (ForceArr K × ForceArr K) × LJGlobals K) (i : Nat) :
    (ForceArr K × ForceArr K) × LJGlobals K :=
  if (mol₁ i).own = .dummy then s
  else
    let r := (List.range n₂).foldl (ljInner c newton3 newton3 (mol₁ i) mol₂) ⟨s.1.2, 0, s.2⟩
    ((Function.update s.1.1 i (s.1.1 i + r.acc), r.force), r.sums)

/-- `SoAFunctorPair(soa1, soa2, newton3)`, LJFunctor.h:369-376, 387-559. -/
def ljSoAPair (c : LJCfg K) (newton3 : Bool) (mol₁ mol₂ : Nat → Mol K) (n₁ n₂ : Nat) (force₁ force₂ : ForceArr K) (g : LJGlobals K) :
    (ForceArr K × ForceArr K) × LJGlobals K :=
  if n₁ = 0 ∨ n₂ = 0 then ((force₁, force₂), g)
  else
    let r := (List.range n₁).foldl (ljPairOuter c newton3 mol₁ mol₂ n₂) ((force₁, force₂), .zero)
    (r.1, g.plus r.2.virialSum r.2.potentialEnergySum)

/-- One pass of the vectorised loop of `SoAFunctorVerletImpl` over `vecsize` neighbours, LJFunctor.h:880-999: all kernels are evaluated
first (`fxArr`), then the forces are scattered (:990-998). The positions do not change, so gathering them (:901-906) is reading them. -/
def ljVerletBlock (c : LJCfg K) (newton3 : Bool) (first : Nat) (mol : Nat → Mol K) (s : LJInner K) (block : List Nat) : LJInner K :=
  let r := block.foldl (ljInner c false newton3 (mol first) mol) s
  { r with force := if newton3 then
      block.foldl (fun F j => Function.update F j (F j - (ljKernelSoA c (mol first) (mol j)).1)) r.force else r.force }

/-- The vectorised loop, LJFunctor.h:880: as long as `vecsize` neighbours are left. The result is the state and the rest of the list. -/
def ljVerletBlocks (c : LJCfg K) (newton3 : Bool) (vecsize first : Nat) (mol : Nat → Mol K) (s : LJInner K) (list : List Nat) :
    LJInner K × List Nat :=
  if _h : 0 < vecsize ∧ vecsize ≤ list.length then
    ljVerletBlocks c newton3 vecsize first mol (ljVerletBlock c newton3 first mol s (list.take vecsize)) (list.drop vecsize)
  else (s, list)
termination_by list.length
decreasing_by simp only [List.length_drop]; omega

/-- One iteration of the loop over the remainder, LJFunctor.h:1002-1087. -/
def ljVerletRest (c : LJCfg K) (newton3 : Bool) (first : Nat) (mol : Nat → Mol K) (s : LJInner K) (j : Nat) : LJInner K :=
  if first = j then s
  else if (mol j).own = .dummy then s
  else
    let dr := (mol first).pos - (mol j).pos
    if c.cutoffSquared < dr.x * dr.x + dr.y * dr.y + dr.z * dr.z then s
    else
      let k := ljKernelAoS c (mol first) (mol j)
      let e := ljEnergyFactor newton3 (mol first) (mol j)
      { force := if newton3 then Function.update s.force j (s.force j - k.1) else s.force
        acc := s.acc + k.1
        sums := s.sums.plus ⟨k.2.1.x * e, k.2.1.y * e, k.2.1.z * e⟩ (k.2.2 * e) }

/-- `SoAFunctorVerlet(soa, indexFirst, neighborList, newton3)`, LJFunctor.h:569-578, 807-1109; `vecsize` is 16 with AVX512 and 12
otherwise (:859-865). -/
def ljSoAVerlet (c : LJCfg K) (newton3 : Bool) (vecsize : Nat) (mol : Nat → Mol K) (n first : Nat) (list : List Nat) (force : ForceArr K)
    (g : LJGlobals K) : ForceArr K × LJGlobals K :=
  if n = 0 ∨ list = [] then (force, g)
  else if (mol first).own = .dummy then (force, g)
  else
    let b := ljVerletBlocks c newton3 vecsize first mol ⟨force, 0, .zero⟩ list
    let r := b.2.foldl (ljVerletRest c newton3 first mol) b.1
    (if r.acc ≠ 0 then Function.update r.force first (r.force first + r.acc) else r.force,
      g.plus r.sums.virialSum r.sums.potentialEnergySum)

/-- `initTraversal()`, LJFunctor.h:635-649: the sums of all threads. -/
def ljInitTraversal (threads : Nat) : List (LJGlobals K) := List.replicate threads .zero

/-- `endTraversal(newton3)`, LJFunctor.h:655-679, for `calculateGlobals`: `_potentialEnergySum` and `_virialSum`. -/
def ljEndTraversal (threadData : List (LJGlobals K)) : Num K × V3 (Num K) :=
  let sums := threadData.foldl (fun s d => (s.1 + d.potentialEnergySum, s.2 + d.virialSum)) ((0 : Num K), (0 : V3 (Num K)))
  (sums.1 * .fin (1 / 2) / .fin 6, sums.2.scale (.fin (1 / 2)))

/-- `getPotentialEnergy()`, LJFunctor.h:685-697. -/
def ljPotentialEnergy (r : Num K × V3 (Num K)) : Num K := r.1

/-- `getVirial()`, LJFunctor.h:703-714. -/
def ljVirial (r : Num K × V3 (Num K)) : Num K := r.2.x + r.2.y + r.2.z

end

end Verif

namespace Verif

section
variable {K : Type} [Field K] [LinearOrder K] {P : Type} [DecidableEq P]

/-- `SoALoader`, /repo/src/autopas/baseFunctors/Functor.h:111-114, 202-230: the attributes of the particles of a cell are copied to the
arrays of the SoA, in the order of the cell. -/
def soaLoadForces (l : List P) (force : P → V3 (Num K)) : ForceArr K := fun k => match l[k]? with | some p => force p | none => 0

/-- `SoALoader` for the attributes that are only read. -/
def soaLoadMols (l : List P) (mol : P → Mol K) : Nat → Mol K := fun k => match l[k]? with | some p => mol p | none => ⟨0, 0, .dummy⟩

/-- `SoAExtractor`, Functor.h:125-128, 240-264: the computed attributes (the forces, LJFunctor.h:620-623) are copied back. -/
def soaExtractForces (l : List P) (F : ForceArr K) (force : P → V3 (Num K)) : P → V3 (Num K) :=
  fun p => if p ∈ l then F (l.idxOf p) else force p

/-- A cell processed by `SoAFunctorSingle`. -/
def ljCellSoA (c : LJCfg K) (mol : P → Mol K) (l : List P) (s : LJState P K) : LJState P K :=
  let r := ljSoASingle c (soaLoadMols l mol) l.length (soaLoadForces l s.force) s.globals
  ⟨soaExtractForces l r.1 s.force, r.2⟩

/-- Two cells processed by `SoAFunctorPair`. -/
def ljCellPairSoA (c : LJCfg K) (newton3 : Bool) (mol : P → Mol K) (l₁ l₂ : List P) (s : LJState P K) : LJState P K :=
  let r := ljSoAPair c newton3 (soaLoadMols l₁ mol) (soaLoadMols l₂ mol) l₁.length l₂.length (soaLoadForces l₁ s.force)
    (soaLoadForces l₂ s.force) s.globals
  ⟨soaExtractForces l₂ r.1.2 (soaExtractForces l₁ r.1.1 s.force), r.2⟩

/-- The neighbours `list` (indices into the SoA of all particles `l`) of particle number `first` processed by `SoAFunctorVerlet`. -/
def ljListSoA (c : LJCfg K) (newton3 : Bool) (vecsize : Nat) (mol : P → Mol K) (l : List P) (first : Nat) (list : List Nat)
    (s : LJState P K) : LJState P K :=
  let r := ljSoAVerlet c newton3 vecsize (soaLoadMols l mol) l.length first list (soaLoadForces l s.force) s.globals
  ⟨soaExtractForces l r.1 s.force, r.2⟩

end

end Verif
