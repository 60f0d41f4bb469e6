import Verif.Model.RuleBasedTuning
import Verif.Model.RelevantCsfs
import Verif.Model.Sliced
import Verif.Model.CellOp
import Verif.Model.Outcome
/-!
Model of the generation of the search space: /repo/src/autopas/tuning/utils/SearchSpaceGenerators.cpp,
tuning/Configuration.cpp (`hasCompatibleValues`), containers/CompatibleTraversals.h, containers/CompatibleLoadEstimators.h,
the part of AutoPasImpl.h that calls it, and of what decides whether a traversal can be used at all:
tuning/selectors/TraversalSelector.h and `isApplicable` of the traversals.

* `std::set` of options: lists; their order does not matter because the result is a sorted set.
* Exceptions are `throws` (the default behaviour of the exception handler).
-/
namespace Verif

/-- `ContainerOption::Value`, ContainerOption.h:24-74, in this order. -/
inductive Cont
  | directSum | linkedCells | linkedCellsReferences | varVerletListsAsBuild | verletClusterLists | verletLists | verletListsCells
  | pairwiseVerletLists | octree
deriving DecidableEq, Repr

/-- `TraversalOption::Value`, TraversalOption.h:25-191, in this order. -/
inductive Trav
  | ds_sequential
  | lc_c01 | lc_c01_combined_SoA | lc_c04 | lc_c04_HCP | lc_c04_combined_SoA | lc_c08 | lc_c18 | lc_sliced | lc_sliced_balanced
  | lc_sliced_c02
  | ot_c01 | ot_c18
  | vcl_c01_balanced | vcl_c06 | vcl_cluster_iteration | vcl_sliced | vcl_sliced_balanced | vcl_sliced_c02
  | vl_list_iteration
  | vlc_c01 | vlc_c18 | vlc_c08 | vlc_sliced | vlc_sliced_balanced | vlc_sliced_c02
  | vlp_c01 | vlp_c18 | vlp_sliced | vlp_sliced_balanced | vlp_sliced_c02 | vlp_c08
  | vvl_as_built
deriving DecidableEq, Repr

/-- `LoadEstimatorOption::Value`, LoadEstimatorOption.h:23-36. -/
inductive LoadEst
  | none | squaredParticlesPerCell | neighborListLength
deriving DecidableEq, Repr

/-- `DataLayoutOption::Value`, DataLayoutOption.h:23-32. -/
inductive Layout
  | aos | soa
deriving DecidableEq, Repr

/-- `InteractionTypeOption::Value`, InteractionTypeOption.h:27-40. -/
inductive IxType
  | pairwise | triwise | all
deriving DecidableEq, Repr

/-- The enumerators in the order of their values. -/
def Cont.values : List Cont := [.directSum, .linkedCells, .linkedCellsReferences, .varVerletListsAsBuild, .verletClusterLists, .verletLists,
  .verletListsCells, .pairwiseVerletLists, .octree]

def Trav.values : List Trav :=
  [.ds_sequential, .lc_c01, .lc_c01_combined_SoA, .lc_c04, .lc_c04_HCP, .lc_c04_combined_SoA, .lc_c08, .lc_c18, .lc_sliced,
    .lc_sliced_balanced, .lc_sliced_c02, .ot_c01, .ot_c18, .vcl_c01_balanced, .vcl_c06, .vcl_cluster_iteration, .vcl_sliced,
    .vcl_sliced_balanced, .vcl_sliced_c02, .vl_list_iteration, .vlc_c01, .vlc_c18, .vlc_c08, .vlc_sliced, .vlc_sliced_balanced,
    .vlc_sliced_c02, .vlp_c01, .vlp_c18, .vlp_sliced, .vlp_sliced_balanced, .vlp_sliced_c02, .vlp_c08, .vvl_as_built]

def LoadEst.values : List LoadEst := [.none, .squaredParticlesPerCell, .neighborListLength]

/-- `TraversalOption::getOptionNames`, TraversalOption.h:283-335. -/
def Trav.name : Trav → String
  | .ds_sequential => "ds_sequential"
  | .lc_sliced => "lc_sliced"
  | .lc_sliced_balanced => "lc_sliced_balanced"
  | .lc_sliced_c02 => "lc_sliced_c02"
  | .lc_c01 => "lc_c01"
  | .lc_c01_combined_SoA => "lc_c01_combined_SoA"
  | .lc_c04 => "lc_c04"
  | .lc_c04_HCP => "lc_c04_HCP"
  | .lc_c04_combined_SoA => "lc_c04_combined_SoA"
  | .lc_c08 => "lc_c08"
  | .lc_c18 => "lc_c18"
  | .vcl_cluster_iteration => "vcl_cluster_iteration"
  | .vcl_c06 => "vcl_c06"
  | .vcl_c01_balanced => "vcl_c01_balanced"
  | .vcl_sliced => "vcl_sliced"
  | .vcl_sliced_c02 => "vcl_sliced_c02"
  | .vcl_sliced_balanced => "vcl_sliced_balanced"
  | .vl_list_iteration => "vl_list_iteration"
  | .vlc_sliced => "vlc_sliced"
  | .vlc_sliced_c02 => "vlc_sliced_c02"
  | .vlc_c18 => "vlc_c18"
  | .vlc_c01 => "vlc_c01"
  | .vlc_c08 => "vlc_c08"
  | .vlc_sliced_balanced => "vlc_sliced_balanced"
  | .vvl_as_built => "vvl_as_built"
  | .vlp_sliced => "vlp_sliced"
  | .vlp_sliced_c02 => "vlp_sliced_c02"
  | .vlp_c18 => "vlp_c18"
  | .vlp_c01 => "vlp_c01"
  | .vlp_sliced_balanced => "vlp_sliced_balanced"
  | .vlp_c08 => "vlp_c08"
  | .ot_c18 => "ot_c18"
  | .ot_c01 => "ot_c01"

/-- `getAllOptionsOf`, TraversalOption.h:266-275, with `getAllPairwiseOptions` (:222) and `getAllTriwiseOptions` (:228). -/
def Trav.allOptionsOf : IxType → List Trav
  | .pairwise => Trav.values
  | .triwise => [.ds_sequential, .lc_c01]
  | .all => []

/-- `filterAllOptions`, CompatibleTraversals.h:29-36. -/
def filterAllOptions (pre : String) (it : IxType) : List Trav :=
  (Trav.allOptionsOf it).filter fun t => t.name.toList.take pre.length == pre.toList

/-- `allCompatibleTraversals`, CompatibleTraversals.h:194-252, and the functions it calls (:43-139); `none`: exception. -/
def compatibleTraversals (c : Cont) : IxType → Option (List Trav)
  | .pairwise => match c with
    | .linkedCells => some (filterAllOptions "lc_" .pairwise)
    | .directSum => some (filterAllOptions "ds_" .pairwise)
    | .verletClusterLists => some (filterAllOptions "vcl_" .pairwise)
    | .verletLists => some (filterAllOptions "vl_" .pairwise)
    | .verletListsCells => some (filterAllOptions "vlc_" .pairwise)
    | .varVerletListsAsBuild => some (filterAllOptions "vvl_" .pairwise)
    | .linkedCellsReferences => some (filterAllOptions "lc_" .pairwise)
    | .pairwiseVerletLists => some (filterAllOptions "vlp_" .pairwise)
    | .octree => some (filterAllOptions "ot_" .pairwise)
  | .triwise => match c with
    | .directSum => some (filterAllOptions "ds_" .triwise)
    | .linkedCells => some (filterAllOptions "lc_" .triwise)
    | _ => some []
  | .all => none

/-- `allTraversalsSupportingOnlyNewton3Disabled`, CompatibleTraversals.h:145-154. -/
def onlyNewton3Disabled : List Trav :=
  [.lc_c01, .lc_c01_combined_SoA, .ot_c01, .vcl_c01_balanced, .vcl_cluster_iteration, .vl_list_iteration, .vlc_c01, .vlp_c01]

/-- `allTraversalsSupportingOnlyNewton3Enabled`, CompatibleTraversals.h:159-163. -/
def onlyNewton3Enabled : List Trav := [.ot_c18]

/-- `allTraversalsSupportingOnlyAoS`, CompatibleTraversals.h:168. -/
def onlyAoS : List Trav := []

/-- `allTraversalsSupportingOnlySoA`, CompatibleTraversals.h:173-178. -/
def onlySoA : List Trav := [.lc_c01_combined_SoA, .lc_c04_combined_SoA]

/-- `allCompatibleLoadEstimators`, CompatibleLoadEstimators.h:29-47. -/
def compatibleLoadEstimators : Cont → List LoadEst
  | .linkedCells => [.none, .squaredParticlesPerCell]
  | .verletListsCells => [.none, .squaredParticlesPerCell, .neighborListLength]
  | .verletClusterLists => [.none, .neighborListLength]
  | _ => []

/-- `usesLoadEstimator`, CompatibleLoadEstimators.h:55-68. -/
def usesLoadEstimator : Trav → Bool
  | .lc_sliced_balanced => true
  | .vcl_sliced_balanced => true
  | .vlc_sliced_balanced => true
  | _ => false

/-- `getApplicableLoadEstimators`, CompatibleLoadEstimators.h:79-92. -/
def applicableLoadEstimators (c : Cont) (t : Trav) (allowed : List LoadEst) : List LoadEst :=
  if usesLoadEstimator t then
    let intersection := allowed.filter fun e => (compatibleLoadEstimators c).contains e
    if intersection.isEmpty then [.none] else intersection
  else [.none]

/-- The options of a configuration as the user sees them. -/
structure Options where
  container : Cont
  cellSizeFactor : Rat
  traversal : Trav
  loadEstimator : LoadEst
  dataLayout : Layout
  newton3 : Bool
  interactionType : IxType
deriving DecidableEq, Repr

/-- Values of the enumerators. -/
def Cont.value (c : Cont) : Nat := Cont.values.idxOf c
def Trav.value (t : Trav) : Nat := Trav.values.idxOf t
def LoadEst.value (e : LoadEst) : Nat := LoadEst.values.idxOf e
def Layout.value : Layout → Nat
  | .aos => 0
  | .soa => 1
def IxType.value : IxType → Nat
  | .pairwise => 1
  | .triwise => 2
  | .all => 3

/-- The constructor of `Configuration`, Configuration.h:48-57. -/
def Options.config (o : Options) : Configuration Rat :=
  { container := o.container.value, traversal := o.traversal.value, loadEstimator := o.loadEstimator.value, dataLayout := o.dataLayout.value,
    newton3 := if o.newton3 then 1 else 0, cellSizeFactor := o.cellSizeFactor, interactionType := o.interactionType.value }

/-- `hasCompatibleValues`, Configuration.cpp:53-92; `none`: exception. -/
def hasCompatibleValues (o : Options) : Option Bool :=
  (compatibleTraversals o.container o.interactionType).map fun ts =>
    ts.contains o.traversal &&
    (applicableLoadEstimators o.container o.traversal LoadEst.values).contains o.loadEstimator &&
    !(o.newton3 && onlyNewton3Disabled.contains o.traversal) &&
    !(!o.newton3 && onlyNewton3Enabled.contains o.traversal) &&
    !(decide (o.dataLayout = .aos) && onlySoA.contains o.traversal) &&
    !(decide (o.dataLayout = .soa) && onlyAoS.contains o.traversal)

/-- `NumberSet<double>`: a finite set or an interval. -/
inductive CsfSet
  | finite (l : List Rat)
  | interval (lo hi : Rat)
deriving DecidableEq, Repr

/-- The candidates of the nested loops, SearchSpaceGenerators.cpp:30-54, for one container and its traversals. -/
def candidates (c : Cont) (ts : List Trav) (travs : List Trav) (les : List LoadEst) (lays : List Layout) (n3s : List Bool) (csfs : List Rat)
    (it : IxType) : List Options :=
  (travs.filter fun t => ts.contains t).flatMap fun t =>
    csfs.flatMap fun f => (applicableLoadEstimators c t les).flatMap fun e => lays.flatMap fun d => n3s.map fun n => ⟨c, f, t, e, d, n, it⟩

/-- The body of the loop over the containers, SearchSpaceGenerators.cpp:30-57. `none`: exception. -/
def containerConfigs (travs : List Trav) (les : List LoadEst) (lays : List Layout) (n3s : List Bool) (csfs : List Rat) (it : IxType) (c : Cont) :
    Option (List Options) :=
  (compatibleTraversals c it).map fun ts =>
    (candidates c ts travs les lays n3s csfs it).filter fun o => hasCompatibleValues o == some true

/-- `cartesianProduct`, SearchSpaceGenerators.cpp:18-63. -/
def cartesianProduct (conts : List Cont) (travs : List Trav) (les : List LoadEst) (lays : List Layout) (n3s : List Bool) (csfs : CsfSet)
    (it : IxType) : Outcome (List (Configuration Rat)) :=
  match csfs with
  | .interval _ _ => .throws
  | .finite fs =>
    match conts.mapM (containerConfigs travs les lays n3s fs it) with
    | none => .throws
    | some ls =>
      let searchSet := setOfList (ls.flatten.map Options.config)
      if searchSet.isEmpty then .throws else .ok searchSet

/-- The cell size factors that `AutoPas::init` passes on, AutoPasImpl.h:88-98. -/
def initCellSizeFactors (cutoff skinPerTimestep : Rat) (rebuildFrequency : Nat) (bMin bMax : V3 Rat) : CsfSet → CsfSet
  | .interval lo hi =>
    let interactionLength := cutoff * skinPerTimestep * rebuildFrequency
    .finite (calculateRelevantCsfs lo hi interactionLength (bMax.x - bMin.x))
  | .finite l => .finite l

/-- `TraversalSelector::generatePairwiseTraversal` and `generateTriwiseTraversal`, TraversalSelector.h:111-330: is there such a
traversal for functors of this type? -/
def generatesTraversal : IxType → Trav → Bool
  | .pairwise, _ => true
  | .triwise, .ds_sequential => true
  | .triwise, .lc_c01 => true
  | .triwise, _ => false
  | .all, _ => false

/-- `TraversalSelectorInfo`, TraversalSelectorInfo.h:18-60. -/
structure TravInfo where
  cellsPerDim : V3 Nat
  interactionLength : Rat
  cellLength : V3 Rat
deriving DecidableEq, Repr

/-- `_overlapLongestAxis`, SlicedBasedTraversal.h:182-199. -/
def TravInfo.overlapLongestAxis (info : TravInfo) (forward : Bool) : Int :=
  (overlapOf info.interactionLength info.cellLength).get (longestAxis info.cellsPerDim) * (if forward then 1 else 2)

/-- Number of cells along the longest axis. -/
def TravInfo.longest (info : TravInfo) : Nat := info.cellsPerDim.get (longestAxis info.cellsPerDim)

/-- `*std::min_element(_cellLength)`. -/
def TravInfo.minLength (info : TravInfo) : Rat := min (min info.cellLength.x info.cellLength.y) info.cellLength.z

/-- `SlicedBasedTraversal::isApplicable`, SlicedBasedTraversal.h:64-68. -/
def TravInfo.sliced (info : TravInfo) (forward : Bool) : Bool := decide (0 < (info.longest : Int) / (info.overlapLongestAxis forward + 1))

/-- `SlicedC02BasedTraversal::isApplicable`, SlicedC02BasedTraversal.h:59-61. -/
def TravInfo.slicedC02 (info : TravInfo) (forward : Bool) : Bool := decide ((info.longest : Int) ≥ info.overlapLongestAxis forward)

/-- `isApplicable()` of the traversal generated for this option:
LCC01Traversal.h:125-128, LCC04Traversal.h:60-67, LCC04HCPTraversal.h:56-61, LCC04CombinedSoATraversal.h:58-61, LCC08Traversal.h:57, LCC18Traversal.h:73,
SlicedBasedTraversal.h:64-68 (lc_sliced, lc_sliced_balanced, vcl_sliced, vcl_sliced_balanced), SlicedC02BasedTraversal.h:59-61
(lc_sliced_c02, vcl_sliced_c02), OTC01Traversal.h:55, OTC18Traversal.h:57, VCLC01BalancedTraversal.h:40, VCLC06Traversal.h:68,
VCLClusterIterationTraversal.h:42, VVLAsBuildTraversal.h:78, VLListIterationTraversal.h:39, VLCC01Traversal.h:64, VLCC08Traversal.h:56,
VLCC18Traversal.h:66, VLCCellPairC08Traversal.h:47, VLCSliced{,Balanced,C02}Traversal.h:76, 73, 71. The comparisons with both data layouts are
left out: there are no others. The forward flag of the sliced traversals of cluster lists is `false` (VCLSlicedTraversal.h:62-63). -/
def Trav.isApplicable (info : TravInfo) (it : IxType) (layout : Layout) (newton3 : Bool) : Trav → Bool
  | .ds_sequential => true
  | .lc_c01 => !newton3
  | .lc_c01_combined_SoA => !newton3 && decide (layout = .soa) && decide (it = .pairwise)
  | .lc_c04 => decide (info.minLength ≥ info.interactionLength) &&
      decide (min (min info.cellsPerDim.x info.cellsPerDim.y) info.cellsPerDim.z > 3)
  | .lc_c04_HCP => decide (info.minLength ≥ info.interactionLength)
  | .lc_c04_combined_SoA => decide (layout = .soa) && decide (overlapOf info.interactionLength info.cellLength = ⟨1, 1, 1⟩)
  | .lc_c08 => true
  | .lc_c18 => true
  | .lc_sliced => info.sliced true
  | .lc_sliced_balanced => info.sliced true
  | .lc_sliced_c02 => info.slicedC02 true
  | .ot_c01 => !newton3
  | .ot_c18 => newton3
  | .vcl_c01_balanced => !newton3
  | .vcl_c06 => true
  | .vcl_cluster_iteration => !newton3
  | .vcl_sliced => info.sliced false
  | .vcl_sliced_balanced => info.sliced false
  | .vcl_sliced_c02 => info.slicedC02 false
  | .vl_list_iteration => !newton3
  | .vlc_c01 => !newton3
  | .vlc_c18 => true
  | .vlc_c08 => decide (info.minLength ≥ info.interactionLength)
  | .vlc_sliced => true
  | .vlc_sliced_balanced => true
  | .vlc_sliced_c02 => true
  | .vlp_c01 => !newton3
  | .vlp_c18 => true
  | .vlp_sliced => true
  | .vlp_sliced_balanced => true
  | .vlp_sliced_c02 => true
  | .vlp_c08 => true
  | .vvl_as_built => true

end Verif
