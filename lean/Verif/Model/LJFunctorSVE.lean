import Verif.Model.LJTraversal
/-!
Model of /repo/applicationLibrary/molecularDynamics/molecularDynamicsLibrary/LJFunctorSVE.h: the Lennard-Jones functor with the Scalable Vector
Extension of ARM. Its AoS kernel (LJFunctorSVE.h:127-180), `initTraversal`, `endTraversal` and getters are those of `LJFunctor.h`
(`Model/LJFunctor.lean`). The SoA kernels process registers of `w` numbers; the processor decides what `w` is. Four registers are treated in one
pass, a lane that has no particle is switched off by a predicate.

A register is a function of its lanes, those for x, y and z are one register of vectors. Arithmetic as in `Model/Num.lean`; `svmla` and the like are
a multiplication and an addition, there is no rounding. The reciprocal, an estimate and four steps of Newton's method (:415-419), is exact in the
kernels; `sveReciprocal` is the iteration itself. What an instruction with `_x` leaves in a lane that is switched off is never used; the model
computes something there. Indices do not overflow.

Reading or writing behind the end of an array is undefined: `none`.
-/
namespace Verif

/-- `svfloat64_t`, `svbool_t`, .. with `svlen` lanes. -/
abbrev SReg (w : Nat) (α : Type) := Fin w → α

section
variable {K : Type} [Field K] [LinearOrder K]

/-- `svaddv(svptrue_b64(), a)`: the sum of the lanes. -/
def sveAddv {w : Nat} (a : SReg w (Num K)) : Num K := (List.finRange w).foldl (fun s l => s + a l) 0

/-- The same for three registers. -/
def sveAddvV {w : Nat} (a : SReg w (V3 (Num K))) : V3 (Num K) := ⟨sveAddv fun l => (a l).x, sveAddv fun l => (a l).y, sveAddv fun l => (a l).z⟩

/-- `svrecps(a, x)`: the correction of a step of Newton's method for 1 / a. -/
def sveRecps (a x : K) : K := 2 - a * x

/-- `invdr2`, LJFunctorSVE.h:415-419: from the estimate `x = svrecpe(dr2)` with four steps. -/
def sveReciprocal (a x : K) : K :=
  let x₁ := x * sveRecps a x
  let x₂ := x₁ * sveRecps a x₁
  let x₃ := x₂ * sveRecps a x₂
  x₃ * sveRecps a x₃

/-- The accumulators `fxacc, fyacc, fzacc`, `virialSumX, virialSumY, virialSumZ` and `potentialEnergySum`. -/
structure SveAcc (w : Nat) (K : Type) where
  acc : SReg w (V3 (Num K))
  virial : SReg w (V3 (Num K))
  upot : SReg w (Num K)

/-- `svdup_f64(0.0)` for all of them. -/
def SveAcc.zero {w : Nat} : SveAcc w K := ⟨fun _ => 0, fun _ => 0, fun _ => 0⟩

/-- One lane of `distCalc`, LJFunctorSVE.h:375-399: the predicate that is returned, `dr` and `dr2`. `svsub_m` leaves the first operand where `pg` is
false. -/
def sveDistCalc (c : LJCfg K) (i : Mol K) (pg : Bool) (q : Mol K) : Bool × V3 K × K :=
  let dr : V3 K := if pg then i.pos - q.pos else i.pos
  let dr2 : K := dr.x * dr.x + dr.y * dr.y + dr.z * dr.z
  let cutoffMask : Bool := pg && decide (dr2 ≤ c.cutoffSquared)
  let dummyMask : Bool := pg && decide (q.own ≠ .dummy)
  (cutoffMask && dummyMask, dr, dr2)

/-- One lane of `lennardJones`, LJFunctorSVE.h:401-432: `lj6` and `fac`. `t1` is `*typeID1ptr`, `t2` the type loaded for this lane. With `useMixing` the
parameters are gathered from the table of the library (:404-412); `getLJMixingDataPtr(t1, 0)` is the row of `t1`, an entry has three numbers, that
of `t2` begins at `3 * t2`. `svnmls(a, b, c) = -a + b * c`. -/
def sveLennardJones (c : LJCfg K) (t1 t2 : Nat) (dr2 : K) : Num K × Num K :=
  let invdr2 : Num K := .fin 1 / .fin dr2
  let lj2 : Num K := .fin (c.sig t1 t2) * invdr2
  let lj4 : Num K := lj2 * lj2
  let lj6 : Num K := lj2 * lj4
  let lj12 : Num K := lj6 * lj6
  let lj12m6alj12 : Num K := lj12 * .fin 2 - lj6
  (lj6, lj12m6alj12 * .fin (c.eps t1 t2) * invdr2)

/-- The registers of a pass that its result depends on, one lane of each: `pgC`, `fx, fy, fz`, and what is added to the sums. -/
structure SveLane (K : Type) where
  pgC : Bool
  f : V3 (Num K)
  virial : V3 (Num K)
  upot : Num K

/-- One lane of `distCalc`, `lennardJones` and `applyForces`, LJFunctorSVE.h:375-491. -/
def sveLane (c : LJCfg K) (newton3 : Bool) (i : Mol K) (t1 : Nat) (pg : Bool) (q : Mol K) (t2 : Nat) : SveLane K :=
  let d := sveDistCalc c i pg q
  let lj := sveLennardJones c t1 t2 d.2.2
  let f : V3 (Num K) := d.2.1.fin.scale lj.2
  let virial : V3 (Num K) := f * d.2.1.fin
  let lj12m6 : Num K := lj.1 * lj.1 - lj.1
  let potentialEnergy6 : Num K := .fin (c.eps t1 t2) * lj12m6 + .fin (c.shift t1 t2)
  let factor : Num K := (if i.own = .owned then .fin 1 else .fin 0) + (if newton3 then (if q.own = .owned then .fin 1 else .fin 0) else .fin 0)
  ⟨d.1, f, virial.scale factor, factor * potentialEnergy6⟩

/-- The forces of the second particles with `newton3`, LJFunctorSVE.h:449-470: all lanes are loaded, changed and stored. If an index is in two lanes, the
higher lane is stored last. -/
def sveScatter {w : Nat} (idx : SReg w Nat) (lane : SReg w (SveLane K)) (force : ForceArr K) : ForceArr K :=
  (List.finRange w).foldl (fun F l => if (lane l).pgC then Function.update F (idx l) (force (idx l) - (lane l).f) else F) force

/-- One register: `distCalc`, and if a lane is left `lennardJones` and `applyForces`, LJFunctorSVE.h:375-491. `i` is the first particle, `t1` the type at
`typeID1ptr`, `mol` and `force` are the arrays of the second particles, which have `n` entries; `idx` are the entries of the lanes, `t2` the types
loaded for them, `pg` is the predicate. -/
def sveRegister (c : LJCfg K) (newton3 : Bool) {w : Nat} (i : Mol K) (t1 : Nat) (n : Nat) (mol : Nat → Mol K) (idx t2 : SReg w Nat) (pg : SReg w Bool)
    (s : ForceArr K × SveAcc w K) : Option (ForceArr K × SveAcc w K) :=
  if ∀ l, pg l = true → idx l < n then
    let lane : SReg w (SveLane K) := fun l => sveLane c newton3 i t1 (pg l) (mol (idx l)) (t2 l)
    -- `svptest_any(svptrue_b64(), pgC)`
    if ∀ l, (lane l).pgC = false then some s
    else
      some (if newton3 then sveScatter idx lane s.1 else s.1,
        ⟨fun l => if (lane l).pgC then s.2.acc l + (lane l).f else s.2.acc l,
         fun l => if (lane l).pgC then s.2.virial l + (lane l).virial else s.2.virial l,
         fun l => if (lane l).pgC then s.2.upot l + (lane l).upot else s.2.upot l⟩)
  else none

/-- `SoAKernel<newton3, false>(j, ..)`, LJFunctorSVE.h:493-591, on the second particles below `m`. All distances are calculated before all forces are
applied; as no force is read for a distance, this is one register after the other. The predicates are `svwhilelt_b64(j, m)`, .. (:264-267, :347-350).
The types of the second particles are those at `typeID2ptr[0]`, `typeID2ptr[1]`, .., whatever `j` is (:405). -/
def sveKernel (c : LJCfg K) (newton3 : Bool) (w : Nat) (i : Mol K) (t1 : Nat) (n : Nat) (mol : Nat → Mol K) (m j : Nat) (s : ForceArr K × SveAcc w K) :
    Option (ForceArr K × SveAcc w K) :=
  [j, j + w, j + w + w, j + w + w + w].foldlM (fun s j =>
    sveRegister c newton3 i t1 n mol (fun l : Fin w => j + l.val) (fun l => (mol l.val).type) (fun l => decide (j + l.val < m)) s) s

/-- The values of `j` in `for (; j < m; j += step)`. -/
def sveStarts (m step : Nat) : List Nat := List.range' 0 ((m + step - 1) / step) step

/-- The inner loop over the second particles below `m`, LJFunctorSVE.h:259-274, 342-358. -/
def sveInner (c : LJCfg K) (newton3 : Bool) (w : Nat) (i : Mol K) (t1 : Nat) (n : Nat) (mol : Nat → Mol K) (m : Nat) (s : ForceArr K × SveAcc w K) :
    Option (ForceArr K × SveAcc w K) :=
  (sveStarts m (w * 4)).foldlM (fun s j => sveKernel c newton3 w i t1 n mol m j s) s

/-- One iteration of the outer loop of `SoAFunctorSingleImpl`, LJFunctorSVE.h:241-279: the second particles are those before `i`, `typeID1ptr` is
`&typeIDptr[i]`. -/
def sveSingleOuter (c : LJCfg K) (w : Nat) (mol : Nat → Mol K) (n : Nat) (s : ForceArr K × SveAcc w K) (i : Nat) : Option (ForceArr K × SveAcc w K) :=
  if (mol i).own = .dummy then some s
  else do
    let r ← sveInner c true w (mol i) (mol i).type n mol i (s.1, { s.2 with acc := fun _ => 0 })
    some (Function.update r.1 i (r.1 i + sveAddvV r.2.acc), r.2)

/-- `_aosThreadData[threadnum] += ..`, LJFunctorSVE.h:281-288, 365-371, 683-690. -/
def SveAcc.addTo {w : Nat} (a : SveAcc w K) (g : LJGlobals K) : LJGlobals K := g.plus (sveAddvV a.virial) (sveAddv a.upot)

/-- `SoAFunctorSingle(soa, newton3)`, LJFunctorSVE.h:187-193, 215-290: the outer loop runs backwards. -/
def sveSoASingle (c : LJCfg K) (w : Nat) (mol : Nat → Mol K) (n : Nat) (force : ForceArr K) (g : LJGlobals K) : Option (ForceArr K × LJGlobals K) :=
  if n = 0 then some (force, g)
  else do
    let r ← (List.range n).reverse.foldlM (sveSingleOuter c w mol n) (force, (.zero : SveAcc w K))
    some (r.1, r.2.addTo g)

/-- One iteration of the outer loop of `SoAFunctorPairImpl<newton3>`, LJFunctorSVE.h:324-363. `typeID1ptr` points to the first particle of the first SoA,
whatever `i` is (:354). -/
def svePairOuter (c : LJCfg K) (newton3 : Bool) (w : Nat) (mol₁ mol₂ : Nat → Mol K) (n₂ : Nat) (s : (ForceArr K × ForceArr K) × SveAcc w K) (i : Nat) :
    Option ((ForceArr K × ForceArr K) × SveAcc w K) :=
  if (mol₁ i).own = .dummy then some s
  else do
    let r ← sveInner c newton3 w (mol₁ i) (mol₁ 0).type n₂ mol₂ n₂ (s.1.2, { s.2 with acc := fun _ => 0 })
    some ((Function.update s.1.1 i (s.1.1 i + sveAddvV r.2.acc), r.1), r.2)

/-- `SoAFunctorPair(soa1, soa2, newton3)`, LJFunctorSVE.h:200-207, 292-373. -/
def sveSoAPair (c : LJCfg K) (newton3 : Bool) (w : Nat) (mol₁ mol₂ : Nat → Mol K) (n₁ n₂ : Nat) (force₁ force₂ : ForceArr K) (g : LJGlobals K) :
    Option ((ForceArr K × ForceArr K) × LJGlobals K) :=
  if n₁ = 0 ∨ n₂ = 0 then some ((force₁, force₂), g)
  else do
    let r ← (List.range n₁).foldlM (svePairOuter c newton3 w mol₁ mol₂ n₂) ((force₁, force₂), (.zero : SveAcc w K))
    some (r.1, r.2.addTo g)

/-- One pass of the loop of `SoAFunctorVerletImpl`, LJFunctorSVE.h:652-676: the entries of the lanes are loaded from the list, the types are gathered with
them; `typeID1ptr` points to particle 0 of the SoA (:670). -/
def sveVerletPass (c : LJCfg K) (newton3 : Bool) (w : Nat) (mol : Nat → Mol K) (n first : Nat) (list : List Nat) (j : Nat) (s : ForceArr K × SveAcc w K) :
    Option (ForceArr K × SveAcc w K) :=
  sveRegister c newton3 (mol first) (mol 0).type n mol (fun l : Fin w => list.getD (j + l.val) 0) (fun l => (mol (list.getD (j + l.val) 0)).type)
    (fun l => decide (j + l.val < list.length)) s

/-- `SoAFunctorVerlet(soa, indexFirst, neighborList, newton3)`, LJFunctorSVE.h:604-692. -/
def sveSoAVerlet (c : LJCfg K) (newton3 : Bool) (w : Nat) (mol : Nat → Mol K) (n first : Nat) (list : List Nat) (force : ForceArr K) (g : LJGlobals K) :
    Option (ForceArr K × LJGlobals K) :=
  if n = 0 ∨ list = [] then some (force, g)
  else if (mol first).own = .dummy then some (force, g)
  else do
    let r ← (sveStarts list.length w).foldlM (fun s j => sveVerletPass c newton3 w mol n first list j s) (force, (.zero : SveAcc w K))
    some (Function.update r.1 first (r.1 first + sveAddvV r.2.acc), r.2.addTo g)

variable {P : Type} [DecidableEq P]

/-- A call of a kernel: the SoAs are loaded before and extracted after it, as in `ljKernelCall`. -/
def sveKernelCall (c : LJCfg K) (w : Nat) (mol : P → Mol K) (s : LJState P K) : KernelCall P → Option (LJState P K)
  | .aos call => some (ljAoSCall c mol s call)
  | .single _ l => do
    let r ← sveSoASingle c w (soaLoadMols l mol) l.length (soaLoadForces l s.force) s.globals
    some ⟨soaExtractForces l r.1 s.force, r.2⟩
  | .pair newton3 l₁ l₂ => do
    let r ← sveSoAPair c newton3 w (soaLoadMols l₁ mol) (soaLoadMols l₂ mol) l₁.length l₂.length (soaLoadForces l₁ s.force)
      (soaLoadForces l₂ s.force) s.globals
    some ⟨soaExtractForces l₂ r.1.2 (soaExtractForces l₁ r.1.1 s.force), r.2⟩
  | .verlet newton3 l first list => do
    let r ← sveSoAVerlet c newton3 w (soaLoadMols l mol) l.length first list (soaLoadForces l s.force) s.globals
    some ⟨soaExtractForces l r.1 s.force, r.2⟩

/-- Thread `job.1` calls a kernel, as in `ljJob`. -/
def sveJob (c : LJCfg K) (w : Nat) (mol : P → Mol K) (s : LJThreads P K) (job : Nat × KernelCall P) : Option (LJThreads P K) := do
  let r ← sveKernelCall c w mol ⟨s.force, s.threadData.getD job.1 .zero⟩ job.2
  some ⟨r.force, s.threadData.set job.1 r.globals⟩

/-- `computeInteractions` as in `ljCompute`, with `LJFunctorSVE`. -/
def sveCompute (c : LJCfg K) (w : Nat) (threads : Nat) (mol : P → Mol K) (force : P → V3 (Num K)) (jobs : List (Nat × KernelCall P)) :
    Option ((P → V3 (Num K)) × (Num K × V3 (Num K))) := do
  let r ← jobs.foldlM (sveJob c w mol) ⟨force, ljInitTraversal threads⟩
  some (r.force, ljEndTraversal r.threadData)

end

end Verif
