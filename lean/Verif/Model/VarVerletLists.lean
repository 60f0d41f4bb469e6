import Verif.Model.VerletListsPairwise
/-!
The container VarVerletLists with VerletNeighborListAsBuild: /repo/src/autopas/containers/verletListsCellBased/varVerletLists/. The lists
are kept per colour of the traversal that built them and per thread that found the pair.
-/
namespace Verif
section
variable {P : Type}

/-- One thread's list, `std::unordered_map<Particle *, std::vector<Particle *>>` (neighborLists/asBuild/VerletNeighborListAsBuild.h:58): keys in the
order of their insertion; the order of iteration is a parameter of `vvlCalls`. -/
abbrev VVLMap (P : Type) := List (P × List P)

/-- `map[first].push_back(second)`, VerletNeighborListAsBuild.h:250-253. -/
def vvlAdd [DecidableEq P] (m : VVLMap P) (first second : P) : VVLMap P :=
  if first ∈ m.map Prod.fst then m.map fun e => if e.1 = first then (e.1, e.2 ++ [second]) else e else m ++ [(first, [second])]

/-- The generator functor, neighborLists/asBuild/AsBuildPairGeneratorFunctor.h:102-170: SoA without a test for dummies. (In `SoAFunctorSingle` without
Newton 3 the pair is also added the other way round; `CellFunctorCfg.op` has both calls.) -/
def vvlGenerate [DecidableEq P] (pos : P → V3 Rat) (il : Rat) (m : VVLMap P) (c : PairCall P) : VVLMap P :=
  if Spec.distSq (pos c.p) (pos c.q) < il * il then vvlAdd m c.p c.q else m

/-- What a thread has in its list after it processed the given base cells of the `lc_c08` traversal. -/
def vvlThread [DecidableEq P] (pos : P → V3 Rat) (blk : CellBlock) (il : Rat) (f : CellFunctorCfg P) (cells : List (List P))
    (bases : List (V3 Nat)) : VVLMap P :=
  ((bases.flatMap (c08ProcessBaseCell blk.dims blk.cellLength il)).flatMap (f.op (lcCells blk cells))).foldl (vvlGenerate pos il) []

/-- `buildAoSNeighborList`, VerletNeighborListAsBuild.h:42-52, 86-103, with `notifyColorChange`
(/repo/src/autopas/containers/cellTraversals/ColorBasedTraversal.h:131-173): eight colours of `maxThreads` lists each; `sched` says which thread
processed which base cells of which colour. `none`: a list out of range is accessed. (The code accesses it only if there is a pair to add; the model already
if there is a base cell to process.) -/
def vvlBuild [DecidableEq P] (maxThreads : Nat) (pos : P → V3 Rat) (blk : CellBlock) (il : Rat) (f : CellFunctorCfg P) (cells : List (List P))
    (sched : List (List (List (V3 Nat)))) : Option (List (List (VVLMap P))) :=
  if sched.length ≤ 8 ∧ ∀ threads ∈ sched, threads.length ≤ maxThreads then
    some ((List.range 8).map fun colour => (List.range maxThreads).map fun thread =>
      vvlThread pos blk il f cells ((sched.getD colour []).getD thread []))
  else none

/-- `iterateAoS` and `iterateSoA`, traversals/VVLAsBuildTraversal.h:96-133, with `generateSoAFromAoS` (VerletNeighborListAsBuild.h:158-191) and
`loadSoA` (:200-219). `iter` is the order in which the hash map is iterated over. The calls are per colour and per thread's list. -/
def vvlCalls [DecidableEq P] (soa newton3 : Bool) (iter : VVLMap P → VVLMap P) (order : List P) (cells : List (List P))
    (lists : List (List (VVLMap P))) : List (List (List (PairCall P))) :=
  lists.map fun colour => colour.map fun m => vlpList soa newton3 order cells (iter m)

/-- `getNumberOfNeighborPairs`, VerletNeighborListAsBuild.h:236-244. -/
def vvlNumberOfPairs (lists : List (List (VVLMap P))) : Nat := (lists.map fun colour => (colour.map List.length).sum).sum

end
end Verif
