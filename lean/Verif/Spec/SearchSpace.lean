import Verif.Model.SearchSpace
/-!
Which combinations of options are meaningful, from the documentation of the options and what containers and traversals accept; independent of the
tables that the search space is made with.
-/
namespace Verif.Spec

/-- The container whose data a traversal works on: the sections of TraversalOption.h:26-190. -/
def home : Trav → Cont
  | .ds_sequential => .directSum
  | .lc_c01 | .lc_c01_combined_SoA | .lc_c04 | .lc_c04_HCP | .lc_c04_combined_SoA | .lc_c08 | .lc_c18 | .lc_sliced | .lc_sliced_balanced
  | .lc_sliced_c02 => .linkedCells
  | .ot_c01 | .ot_c18 => .octree
  | .vcl_c01_balanced | .vcl_c06 | .vcl_cluster_iteration | .vcl_sliced | .vcl_sliced_balanced | .vcl_sliced_c02 => .verletClusterLists
  | .vl_list_iteration => .verletLists
  | .vlc_c01 | .vlc_c18 | .vlc_c08 | .vlc_sliced | .vlc_sliced_balanced | .vlc_sliced_c02 => .verletListsCells
  | .vlp_c01 | .vlp_c18 | .vlp_sliced | .vlp_sliced_balanced | .vlp_sliced_c02 | .vlp_c08 => .pairwiseVerletLists
  | .vvl_as_built => .varVerletListsAsBuild

/-- The container offers what the traversal needs. Linked cells with references take the traversals of linked cells (for pairs). -/
def RunsOn : IxType → Trav → Cont → Prop
  | .pairwise, t, c => home t = c ∨ (c = .linkedCellsReferences ∧ home t = .linkedCells)
  | .triwise, t, c => home t = c
  | .all, _, _ => False

/-- There is a domain in which the traversal accepts data layout and newton 3 option. -/
def Executable (it : IxType) (t : Trav) (layout : Layout) (newton3 : Bool) : Prop :=
  generatesTraversal it t = true ∧ ∃ info : TravInfo, 0 < info.interactionLength ∧ 0 < info.minLength ∧
    0 < info.cellsPerDim.x ∧ 0 < info.cellsPerDim.y ∧ 0 < info.cellsPerDim.z ∧ t.isApplicable info it layout newton3 = true

/-- Traversals that balance with an estimated load and the containers that offer estimates for them
(LinkedCells.h:112, VerletListsCells.h:74-89, VerletClusterLists.h:113). -/
inductive Offers : Cont → Trav → LoadEst → Prop
  | lcNone : Offers .linkedCells .lc_sliced_balanced .none
  | lcSquared : Offers .linkedCells .lc_sliced_balanced .squaredParticlesPerCell
  | vlcNone : Offers .verletListsCells .vlc_sliced_balanced .none
  | vlcSquared : Offers .verletListsCells .vlc_sliced_balanced .squaredParticlesPerCell
  | vlcLength : Offers .verletListsCells .vlc_sliced_balanced .neighborListLength
  | vclNone : Offers .verletClusterLists .vcl_sliced_balanced .none
  | vclLength : Offers .verletClusterLists .vcl_sliced_balanced .neighborListLength

/-- The options allowed by the user. -/
structure AllowedOptions where
  containers : List Cont
  traversals : List Trav
  loadEstimators : List LoadEst
  dataLayouts : List Layout
  newton3 : List Bool
  cellSizeFactors : List Rat
  interactionType : IxType

/-- A combination of allowed options that can be executed. A load estimator is chosen among the allowed ones that container and traversal can
use; if there is none, the option is `none`, allowed or not. -/
structure Valid (a : AllowedOptions) (o : Options) : Prop where
  container : o.container ∈ a.containers
  traversal : o.traversal ∈ a.traversals
  dataLayout : o.dataLayout ∈ a.dataLayouts
  newton3 : o.newton3 ∈ a.newton3
  cellSizeFactor : o.cellSizeFactor ∈ a.cellSizeFactors
  interactionType : o.interactionType = a.interactionType
  runs : RunsOn o.interactionType o.traversal o.container
  executable : Executable o.interactionType o.traversal o.dataLayout o.newton3
  loadEstimator : (o.loadEstimator ∈ a.loadEstimators ∧ Offers o.container o.traversal o.loadEstimator) ∨
    (o.loadEstimator = .none ∧ ∀ e ∈ a.loadEstimators, ¬ Offers o.container o.traversal e)

end Verif.Spec
