{
 "claims": [
  {
   "property": "C01",
   "status": "proved",
   "theorems": [
    "Verif.C01_number_of_coordinate",
    "Verif.C01_coordinate_of_number",
    "Verif.C01_number_injective",
    "Verif.C01_number_order",
    "Verif.C01_index_no_underflow"
   ],
   "note": "div/mod arithmetic, both round trips grid dimensions positive"
  },
  {
   "property": "C02",
   "status": "proved",
   "theorems": [
    "Verif.C02_lookup_right_kind",
    "Verif.C02_halo_flag"
   ],
   "note": "case analysis on the clamping branches"
  },
  {
   "property": "C03",
   "status": "proved",
   "theorems": [
    "Verif.C03_clear_halo_exact",
    "Verif.C03_clear_halo_in_bounds"
   ],
   "note": "membership characterisation by induction on loops at least one owned cell per axis"
  },
  {
   "property": "C04",
   "status": "proved",
   "theorems": [
    "Verif.C04_boxes_tile",
    "Verif.C04_halo_layer_contains_interaction_length"
   ],
   "note": "unique floor exact arithmetic"
  },
  {
   "property": "C05",
   "status": "proved",
   "theorems": [
    "Verif.C05_overlap_within_halo",
    "Verif.C05_close_positions_in_close_cells",
    "Verif.C05_small_box_counterexample"
   ],
   "note": "ceil/floor inequalities box at least as long as the interaction length: `C05_small_box_counterexample` shows that this is needed"
  },
  {
   "property": "C06",
   "status": "proved",
   "theorems": [
    "Verif.C06_color_traversal_exactly_once",
    "Verif.C06_same_color_far_apart"
   ],
   "note": "arithmetic: unique (colour, quotient) stride positive"
  },
  {
   "property": "C07",
   "status": "proved",
   "theorems": [
    "Verif.C07_lc_c08_pair_exactly_once",
    "Verif.C07_lc_c08_pair_at_most_once",
    "Verif.C07_lc_c08_self_exactly_once",
    "Verif.C07_lc_c08_valid_cells",
    "Verif.C07_lc_c08_positions"
   ],
   "note": "count of (base, offset pair) producing a given cell pair = 1; residues"
  },
  {
   "property": "C08",
   "status": "proved",
   "theorems": [
    "Verif.C08_lc_c08_race_free"
   ],
   "note": "count of (base, offset pair) producing a given cell pair = 1; residues"
  },
  {
   "property": "C09",
   "status": "proved",
   "theorems": [
    "Verif.C09_lc_c18_pair_exactly_once",
    "Verif.C09_lc_c18_pair_at_most_once",
    "Verif.C09_lc_c18_self_exactly_once",
    "Verif.C09_lc_c18_valid_cells",
    "Verif.C09_lc_c18_table_index_valid",
    "Verif.C09_lc_c18_positions"
   ],
   "note": "as C07/C08"
  },
  {
   "property": "C10",
   "status": "proved",
   "theorems": [
    "Verif.C10_lc_c18_race_free"
   ],
   "note": "as C07/C08"
  },
  {
   "property": "C11",
   "status": "proved",
   "theorems": [
    "Verif.C11_lc_c01_ordered_pair_exactly_once",
    "Verif.C11_lc_c01_self_exactly_once",
    "Verif.C11_lc_c01_valid_cells",
    "Verif.C11_lc_c01_no_write_conflict",
    "Verif.C11_lc_c01_positions"
   ],
   "note": "as C07 pairwise version"
  },
  {
   "property": "C12",
   "status": "proved",
   "theorems": [
    "Verif.C12_lc_c04_pair_exactly_once",
    "Verif.C12_lc_c04_pair_at_most_once",
    "Verif.C12_lc_c04_self_exactly_once",
    "Verif.C12_lc_c04_valid_cells",
    "Verif.C12_lc_c04_race_free"
   ],
   "note": "modular arithmetic (`omega`), permutation of the c08 calls overlap 1, which the code requires"
  },
  {
   "property": "C13",
   "status": "proved",
   "theorems": [
    "Verif.C13_lc_c04_HCP_pair_exactly_once",
    "Verif.C13_lc_c04_HCP_pair_at_most_once",
    "Verif.C13_lc_c04_HCP_self_exactly_once",
    "Verif.C13_lc_c04_HCP_valid_cells",
    "Verif.C13_lc_c04_HCP_race_free"
   ],
   "note": "modular arithmetic (`omega`), permutation of the c08 calls overlap 1, which the code requires"
  },
  {
   "property": "C14",
   "status": "proved",
   "theorems": [
    "Verif.C14_lock_mutual_exclusion",
    "Verif.C14_lock_discipline",
    "Verif.C14_no_deadlock",
    "Verif.C14_terminates",
    "Verif.C14_all_locks_released",
    "Verif.C14_lc_sliced_pair_exactly_once",
    "Verif.C14_lc_sliced_self_exactly_once",
    "Verif.C14_lc_sliced_pair_at_most_once",
    "Verif.C14_lc_sliced_race_free"
   ],
   "note": "inductive invariant; well-founded progress argument; footprints of layers sequentially consistent locks"
  },
  {
   "property": "C15",
   "status": "proved",
   "theorems": [
    "Verif.C15_lc_sliced_c02_pair_exactly_once",
    "Verif.C15_lc_sliced_c02_self_exactly_once",
    "Verif.C15_lc_sliced_c02_pair_at_most_once",
    "Verif.C15_lc_sliced_c02_race_free"
   ],
   "note": "induction"
  },
  {
   "property": "C16",
   "status": "proved",
   "theorems": [
    "Verif.C16_plain_slices_partition",
    "Verif.C16_plain_number_of_slices",
    "Verif.C16_balanced_slices_partition",
    "Verif.C16_slices_visit_every_layer_once",
    "Verif.C16_axes"
   ],
   "note": "induction"
  },
  {
   "property": "C17",
   "status": "proved",
   "theorems": [
    "Verif.C17_cell_newton3_exactly_once",
    "Verif.C17_cell_no_newton3_exactly_once_per_direction",
    "Verif.C17_cell_at_most_once",
    "Verif.C17_cell_only_own_particles",
    "Verif.C17_pair_newton3_exactly_once",
    "Verif.C17_pair_no_newton3_exactly_once_per_direction",
    "Verif.C17_pair_at_most_once",
    "Verif.C17_pair_only_own_particles"
   ],
   "note": "permutation / count lemmas AoS only: for SoA the whole cell is handed to the functor; particles of the cells distinct"
  },
  {
   "property": "C18",
   "status": "proved",
   "theorems": [
    "Verif.C18_cell_newton3_near_pairs",
    "Verif.C18_cell_no_newton3_near_pairs",
    "Verif.C18_pair_newton3_near_pairs",
    "Verif.C18_pair_no_newton3_near_pairs",
    "Verif.C18_traversals_pass_cell_direction",
    "Verif.C18_cell_direction_not_behind",
    "Verif.C18_wrong_direction_loses_pairs"
   ],
   "note": "Cauchy-Schwarz `NotBehind`: cell 2 lies in sorting direction. `C18_wrong_direction_loses_pairs` shows the need, `C18_traversals_pass_cell_direction` that c08/c18/c01 provide it"
  },
  {
   "property": "C19",
   "status": "proved",
   "theorems": [
    "Verif.C19_cell_newton3_exactly_once",
    "Verif.C19_cell_no_newton3_exactly_once_per_particle",
    "Verif.C19_cell_at_most_once",
    "Verif.C19_pair_newton3_exactly_once",
    "Verif.C19_pair_no_newton3_first_cell",
    "Verif.C19_pair_no_newton3_second_cell",
    "Verif.C19_pair_newton3_at_most_once",
    "Verif.C19_triple_newton3_exactly_once",
    "Verif.C19_triple_no_newton3_exactly_once_per_particle",
    "Verif.C19_triple_newton3_at_most_once"
   ],
   "note": "permutation / count lemmas AoS only: for SoA the whole cell is handed to the functor; particles of the cells distinct"
  },
  {
   "property": "C20",
   "status": "proved",
   "theorems": [
    "Verif.C20_buffered_particle_receives_each_once",
    "Verif.C20_container_particle_receives_each_once",
    "Verif.C20_no_contribution_twice",
    "Verif.C20_container_pairs_untouched",
    "Verif.C20_container_step_writes_protected",
    "Verif.C20_buffer_steps_write_own_buffer",
    "Verif.C20_pair_at_exactly_cutoff_is_missed"
   ],
   "note": "counting region search is half open: pairs at exactly the cutoff are missed (`C20_pair_at_exactly_cutoff_is_missed`)"
  },
  {
   "property": "C21",
   "status": "proved",
   "theorems": [
    "Verif.C21_buffered_particle_receives_each_once",
    "Verif.C21_container_particle_receives_each_once",
    "Verif.C21_no_contribution_twice",
    "Verif.C21_container_triplets_untouched"
   ],
   "note": "counting region search is half open: pairs at exactly the cutoff are missed (`C20_pair_at_exactly_cutoff_is_missed`)"
  },
  {
   "property": "C22",
   "status": "proved",
   "theorems": [
    "Verif.C22_lists_complete_until_rebuild",
    "Verif.C22_lists_only_offered_pairs",
    "Verif.C22_iteration_calls_every_entry"
   ],
   "note": "triangle inequality in \u211a without square roots movement \u2264 half the skin per time step; `<` is strict at list construction"
  },
  {
   "property": "C23",
   "status": "proved",
   "theorems": [
    "Verif.C23_lists_rebuilt_in_time"
   ],
   "note": "invariant C24 **violated**: lists of a new container are used before they are built, at phase start, with two interaction types and after `forceRetune`"
  },
  {
   "property": "C24",
   "status": "partial",
   "theorems": [
    "Verif.C24_built_before_use_partial",
    "Verif.C24_violated_at_phase_start",
    "Verif.C24_violated",
    "Verif.C24_violated_two_interaction_types",
    "Verif.C24_violated_by_forceRetune"
   ],
   "note": "invariant C24 **violated**: lists of a new container are used before they are built, at phase start, with two interaction types and after `forceRetune`"
  },
  {
   "property": "C25",
   "status": "proved",
   "theorems": [
    "Verif.C25_particles_conserved"
   ],
   "note": "multiset invariant by induction on histories user contract `ActionOk` in Spec/ParticleHistory.lean (thread numbers in range, movement at most half the skin per step, additions where documented); collector loops of one thread are atomic"
  },
  {
   "property": "C26",
   "status": "proved",
   "theorems": [
    "Verif.C26_owned_count"
   ],
   "note": "multiset invariant by induction on histories user contract `ActionOk` in Spec/ParticleHistory.lean (thread numbers in range, movement at most half the skin per step, additions where documented); collector loops of one thread are atomic"
  },
  {
   "property": "C27",
   "status": "proved",
   "theorems": [
    "Verif.C27_leaving_exact"
   ],
   "note": "multiset invariant by induction on histories user contract `ActionOk` in Spec/ParticleHistory.lean (thread numbers in range, movement at most half the skin per step, additions where documented); collector loops of one thread are atomic"
  },
  {
   "property": "C28",
   "status": "proved",
   "theorems": [
    "Verif.C28_terminates",
    "Verif.C28_keeps_elements",
    "Verif.C28_even_sizes",
    "Verif.C28_sizes_differ_by_at_most_one"
   ],
   "note": "induction; two passes always suffice fewer than 2^31 elements (`int numElem`)"
  },
  {
   "property": "C29",
   "status": "partial",
   "theorems": [
    "Verif.C29_resize_exact_partial",
    "Verif.C29_nothing_lost_partial",
    "Verif.C29_history_continues",
    "Verif.C29_violated_buffers"
   ],
   "note": "as C25 **violated**: particles in insertion buffers are not handed back. `C29_history_continues`: they are handed back by the next update"
  },
  {
   "property": "C30",
   "status": "partial",
   "theorems": [
    "Verif.C30_sequential_partial",
    "Verif.C30_one_thread_partial",
    "Verif.C30_violated_dummy"
   ],
   "note": "induction on cells **violated** for behaviour `dummy` without owned/halo"
  },
  {
   "property": "C31",
   "status": "partial",
   "theorems": [
    "Verif.C31_threads_partition_partial"
   ],
   "note": "induction on cells **violated** for behaviour `dummy` without owned/halo"
  },
  {
   "property": "C32",
   "status": "partial",
   "theorems": [
    "Verif.C32_region_exact_partial",
    "Verif.C32_region_exact_near_partial",
    "Verif.C32_violated_far_halo",
    "Verif.C32_violated_margin"
   ],
   "note": "as C30 **violated** for halos farther than the interaction length, and when a particle used its whole skin early"
  },
  {
   "property": "C33",
   "status": "partial",
   "theorems": [
    "Verif.C33_ends_and_applies_body",
    "Verif.C33_exactly_once_partial",
    "Verif.C33_delete_by_predicate",
    "Verif.C33_violated_revisit"
   ],
   "note": "invariants of the loop **violated**: deleting the last particle restarts the iteration when no buffer is filled"
  },
  {
   "property": "C34",
   "status": "partial",
   "theorems": [
    "Verif.C34_linkedCells_partial",
    "Verif.C34_directSum_partial",
    "Verif.C34_verlet_lists_mark",
    "Verif.C34_violated_moved",
    "Verif.C34_violated_directSum_return",
    "Verif.C34_violated_directSum_halo"
   ],
   "note": "case analysis **violated** for DirectSum (return value, wrong particle removed) and for particles that left their cell; `C34_directSum_partial`: owned particles, and halo particles near one dimension only"
  },
  {
   "property": "C35",
   "status": "partial",
   "theorems": [
    "Verif.C35_iterators_select_named_states",
    "Verif.C35_forEach_selects_named_states_partial",
    "Verif.C35_forEach_throws_iff_not_named",
    "Verif.C35_inBox_iff"
   ],
   "note": "bitwise reasoning for all naturals `forEach`/`reduce` throw for combined flags; iterators do not"
  },
  {
   "property": "C36",
   "status": "partial",
   "theorems": [
    "Verif.C36_optimum_minimal",
    "Verif.C36_fastest_selected_partial",
    "Verif.C36_violated_long_phase",
    "Verif.C36_violated_two_evidences"
   ],
   "note": "induction over phases **violated** in corners: sampling longer than the interval, two evidences per phase, last configuration not applicable, empty queue"
  },
  {
   "property": "C37",
   "status": "partial",
   "theorems": [
    "Verif.C37_every_configuration_sampled_partial",
    "Verif.C37_sample_counts",
    "Verif.C37_violated_last_not_applicable",
    "Verif.C37_violated_short_interval"
   ],
   "note": "induction over phases **violated** in corners: sampling longer than the interval, two evidences per phase, last configuration not applicable, empty queue"
  },
  {
   "property": "C38",
   "status": "partial",
   "theorems": [
    "Verif.C38_reject_partial",
    "Verif.C38_never_proposed_again",
    "Verif.C38_violated_empty_queue"
   ],
   "note": "induction over phases **violated** in corners: sampling longer than the interval, two evidences per phase, last configuration not applicable, empty queue"
  },
  {
   "property": "C39",
   "status": "partial",
   "theorems": [
    "Verif.C39_only_slow_removed_partial",
    "Verif.C39_over_time_partial",
    "Verif.C39_violated_repeated_measurement"
   ],
   "note": "one measurement per phase and configuration (`GoodEvidence`); otherwise **violated**"
  },
  {
   "property": "C40",
   "status": "partial",
   "theorems": [
    "Verif.C40_round_robin_partial",
    "Verif.C40_more_ranks_than_configurations",
    "Verif.C40_violated_surplus_ranks"
   ],
   "note": "div/mod **violated** with more ranks than configurations"
  },
  {
   "property": "C41",
   "status": "proved",
   "theorems": [
    "Verif.C41_roundtrip",
    "Verif.C41_bytes",
    "Verif.C41_gather"
   ],
   "note": "round trip option values below 256"
  },
  {
   "property": "C42",
   "status": "proved",
   "theorems": [
    "Verif.C42_equivalent",
    "Verif.C42_well_typed_halts",
    "Verif.C42_conditional_definition_fails"
   ],
   "note": "compiler correctness by induction on syntax parsing (ANTLR) not modelled; `with same` of configuration orders is not part of the compiled code"
  },
  {
   "property": "C43",
   "status": "partial",
   "theorems": [
    "Verif.C43_less_is_strict_total_order",
    "Verif.C43_agreement_partial",
    "Verif.C43_violated"
   ],
   "note": "**violated** for factors closer than 1e-12"
  },
  {
   "property": "C44",
   "status": "partial",
   "theorems": [
    "Verif.C44_roundtrip",
    "Verif.C44_encode_rejects",
    "Verif.C44_decode_partial",
    "Verif.C44_violated",
    "Verif.C44_cluster_roundtrip",
    "Verif.C44_neighbours"
   ],
   "note": "round trip decoding accepts entries other than 0/1: **violated**"
  },
  {
   "property": "C45",
   "status": "partial",
   "theorems": [
    "Verif.C45_in_interval",
    "Verif.C45_cell_counts_partial",
    "Verif.C45_exact_factors",
    "Verif.C45_violated"
   ],
   "note": "ceil/floor **violated** for the smallest cell count"
  },
  {
   "property": "C46",
   "status": "proved",
   "theorems": [
    "Verif.C46_score",
    "Verif.C46_exact_name",
    "Verif.C46_option_list",
    "Verif.C46_tokens"
   ],
   "note": "optimality via the alignment recursion C49 **violated** at the end of a stream (infinite loop)"
  },
  {
   "property": "C47",
   "status": "partial",
   "theorems": [
    "Verif.C47_selectors",
    "Verif.C47_estimate_is_period_mean_partial",
    "Verif.C47_only_rebuild_samples",
    "Verif.C47_violated_no_rebuild_sample"
   ],
   "note": "algebra **violated** without a rebuild sample"
  },
  {
   "property": "C48",
   "status": "partial",
   "theorems": [
    "Verif.C48_near_halos_removed_partial",
    "Verif.C48_far_halo_survives",
    "Verif.C48_violated"
   ],
   "note": "from the collector model of C27 **violated** for halos farther than the interaction length"
  },
  {
   "property": "C49",
   "status": "partial",
   "theorems": [
    "Verif.C49_read_back_partial",
    "Verif.C49_violated_end_of_stream"
   ],
   "note": "optimality via the alignment recursion C49 **violated** at the end of a stream (infinite loop)"
  },
  {
   "property": "C50",
   "status": "proved",
   "theorems": [
    "Verif.C50_global_best"
   ],
   "note": "induction MPI primitives as documented"
  },
  {
   "property": "C51",
   "status": "proved",
   "theorems": [
    "Verif.C51_linked_cells_exactly_once",
    "Verif.C51_linked_cells_at_most_once",
    "Verif.C51_linked_cells_calls"
   ],
   "note": "contribution counts per cell functor call, summed over the calls of the traversal with C07-C15 exact arithmetic; particles binned by a home position at most half the skin away; SoA functors do what they document"
  },
  {
   "property": "C52",
   "status": "proved",
   "theorems": [
    "Verif.C52_every_neighbour_once",
    "Verif.C52_nothing_twice",
    "Verif.C52_accumulates_sum"
   ],
   "note": "invariant: every stored particle is at most (steps since rebuild) half skin-per-step from the position it was sorted by; composition of C51 and the remainder; sum over a permutation linked cells; exact arithmetic; functor zero from the cutoff on and for dummies; user moves at most half the skin per step and calls updateContainer afterwards"
  },
  {
   "property": "C53",
   "status": "proved",
   "theorems": [
    "Verif.C53_lists_exact",
    "Verif.C53_every_neighbour_once",
    "Verif.C53_nothing_twice",
    "Verif.C53_accumulates_sum"
   ],
   "note": "C51 at build time with cutoff := interaction length; triangle inequality; SoA iteration is a permutation of AoS iteration exact arithmetic; storage not reordered while lists are kept; AoS construction needs that dummies are not re-activated"
  },
  {
   "property": "C54",
   "status": "partial",
   "theorems": [
    "Verif.C54_every_neighbour_once_partial",
    "Verif.C54_nothing_twice",
    "Verif.C54_accumulates_sum_partial",
    "Verif.C54_violated_large_skin"
   ],
   "note": "the lemmas of C51 per cell functor call; positions behind their halo cell by at most the skin fails in AoS if the skin exceeds the cutoff (`C54_violated_large_skin`: the sorting cutoff is the cutoff, not the interaction length); `_partial` for skin \u2264 cutoff or SoA"
  },
  {
   "property": "C55",
   "status": "proved",
   "theorems": [
    "Verif.C55_update_exact",
    "Verif.C55_update_sorts",
    "Verif.C55_halo_copy_found"
   ],
   "note": "loop invariant of the swap-delete loop; case analysis over the faces exact arithmetic"
  },
  {
   "property": "C56",
   "status": "proved",
   "theorems": [
    "Verif.C56_every_neighbour_once",
    "Verif.C56_nothing_twice",
    "Verif.C56_accumulates_sum"
   ],
   "note": "the calls made from the lists are a permutation of the calls of the building lc_c18 traversal filtered by distance and visited cells; then C51 and the triangle inequality vlc_c08 is C58; exact arithmetic"
  },
  {
   "property": "C57",
   "status": "proved",
   "theorems": [
    "Verif.C57_vlc_race_free",
    "Verif.C57_vlc_sliced_race_free"
   ],
   "note": "footprint of the lists of a cell: with Newton 3 the neighbours lie at most an overlap away and not below in z; then C06/C14/slice thickness functor calls update their first particle, with Newton 3 both"
  },
  {
   "property": "C58",
   "status": "proved",
   "theorems": [
    "Verif.C58_every_neighbour_once",
    "Verif.C58_nothing_twice",
    "Verif.C58_accumulates_sum",
    "Verif.C58_race_free"
   ],
   "note": "The entries of a base cell's lists are a permutation of the neighbours among the 14 cell pairs of its block; the cell pairs of all base cells form a traversal in the sense of C51 (each pair of adjacent cells once), so C51's counting applies; races as in C06/C57. As C56."
  },
  {
   "property": "C59",
   "status": "proved",
   "theorems": [
    "Verif.C59_build_in_range",
    "Verif.C59_every_neighbour_once",
    "Verif.C59_nothing_twice",
    "Verif.C59_accumulates_sum",
    "Verif.C59_race_free",
    "Verif.C59_sliced_race_free",
    "Verif.C59_c08_race_free"
   ],
   "note": "Invariant over all calls of the generator functor: every cell has at most as many registered neighbours as slots, because they lie in the 27- or 14-cell stencil; the entries of all slots of a cell are those of VerletListsCells (C56), so C56/C57 transfer; for `vlp_c08` the lists visited for a pair of cells are the entries between these cells, and lc_c08 visits each pair of adjacent cells once (C51). Cell size factor at least 1 (what the Verlet containers enforce): with smaller cells the slot count computed by the code could be one short."
  },
  {
   "property": "C60",
   "status": "proved",
   "theorems": [
    "Verif.C60_build_in_range",
    "Verif.C60_every_neighbour_once",
    "Verif.C60_nothing_twice",
    "Verif.C60_accumulates_sum",
    "Verif.C60_race_free"
   ],
   "note": "Entries of a thread's map are a permutation of the near calls of its base cells; all together are those of lc_c08 (C51); eight colours because the overlap is one; races from C08, since different threads have different base cells of a colour. Cell size factor at least 1: with smaller cells there would be more than the eight colours the arrays have room for."
  },
  {
   "property": "C61",
   "status": "partial",
   "theorems": [
    "Verif.C61_number_of_pairs_partial",
    "Verif.C61_number_of_pairs_wrong"
   ],
   "note": "**Violated**: it counts hash map entries (particles with neighbours), not pairs; `C61_number_of_pairs_wrong` has three particles with three pairs and the answer two. Proved: never too large, and right exactly if every list has one neighbour. Partial because of the defect."
  },
  {
   "property": "C62",
   "status": "partial",
   "theorems": [
    "Verif.C62_capacity",
    "Verif.C62_violated",
    "Verif.C62_always_exhausted",
    "Verif.C62_reserved_enough",
    "Verif.C62_cluster_lists_partial"
   ],
   "note": "**Violated**: `C62_violated`, the eleventh request to a new buffer returns an index out of range, because the check for a full buffer is made before the index is incremented; `C62_always_exhausted` for every state. Proved: the exact number of requests that work, and that VerletClusterLists stays below it. Partial because of the defect."
  },
  {
   "property": "C63",
   "status": "proved",
   "theorems": [
    "Verif.C63_rebuild_keeps",
    "Verif.C63_storage"
   ],
   "note": "A particle in the box of a tower has that tower as its index; counting over kept, surplus and out-of-bounds particles. `cbrt` is any function that is positive on positive numbers."
  },
  {
   "property": "C64",
   "status": "partial",
   "theorems": [
    "Verif.C64_threads_partition_partial",
    "Verif.C64_region_exact_partial",
    "Verif.C64_violated_owned",
    "Verif.C64_violated_region"
   ],
   "note": "**Violated** if the number of towers per interaction length differs in x and y: an owned particle is not visited (`C64_violated_owned`), a halo particle in the region is not visited (`C64_violated_region`). Proved if they agree. Partial because of the defect; dummies and far particles as in C31, C32."
  },
  {
   "property": "C65",
   "status": "partial",
   "theorems": [
    "Verif.C65_every_neighbour_once_partial",
    "Verif.C65_accumulates_sum_partial",
    "Verif.C65_nothing_twice",
    "Verif.C65_violated_uneven"
   ],
   "note": "Particles within the cutoff are in towers and boxes that pass the tests of the rebuilder; each unordered pair of clusters is on exactly one list with Newton 3 and on two without; every cluster is visited once. **Violated** if the number of towers per interaction length differs in x and y: `C65_violated_uneven`, two owned particles within the cutoff never interact, with every traversal. Nothing is received twice on any grid. Partial because of the defect."
  },
  {
   "property": "C66",
   "status": "partial",
   "theorems": [
    "Verif.C66_same_towers_partial",
    "Verif.C66_violated"
   ],
   "note": "If the estimate still gives the same number of towers, C65 holds. **Violated** otherwise: `C66_violated`, nine particles, one is deleted, and the sliced traversals skip towers with owned particles. Partial because of the defect."
  },
  {
   "property": "C67",
   "status": "partial",
   "theorems": [
    "Verif.C67_race_free_partial",
    "Verif.C67_sliced_race_free_partial",
    "Verif.C67_violated"
   ],
   "note": "Stride 3\u00d72 of c06 against the forward direction of lists; distance of slices against the doubled overlap. **Violated** between rebuilds: `C67_violated`, after a deletion two slices of `vcl_sliced_c02` that run at the same time update the same particle. Partial because of the defect."
  },
  {
   "property": "C68",
   "status": "proved",
   "theorems": [
    "Verif.C68_thread_partition"
   ],
   "note": "Invariant: the closed ranges are exactly the clusters before the current one. The list lengths are arbitrary."
  },
  {
   "property": "C69",
   "status": "partial",
   "theorems": [
    "Verif.C69_holds_what_was_given_partial",
    "Verif.C69_sorted",
    "Verif.C69_size_partial",
    "Verif.C69_violated_insert_after_move",
    "Verif.C69_violated_far_halo"
   ],
   "note": "Invariant over histories: the leaves hold a permutation of the specification's lists, and particles are in the box of their leaf while nothing moved. **Violated**: `C69_violated_insert_after_move` (an insertion that splits a leaf drops a particle that moved out of the box since), `C69_violated_far_halo` (a halo particle farther away than the interaction length is dropped but counted). Partial because of the defects."
  },
  {
   "property": "C70",
   "status": "proved",
   "theorems": [
    "Verif.C70_every_neighbour_once",
    "Verif.C70_nothing_twice",
    "Verif.C70_accumulates_sum",
    "Verif.C70_inserted_particles_interact"
   ],
   "note": "Direction tables by kernel computation over all of the finite tables; for the tree: the leaves touching a leaf are exactly those found through the 26 directions, each once, by induction over paths. Exact arithmetic."
  },
  {
   "property": "C71",
   "status": "partial",
   "theorems": [
    "Verif.C71_delete_reference_partial",
    "Verif.C71_delete_at_iterator",
    "Verif.C71_violated_size",
    "Verif.C71_violated_empty_leaf",
    "Verif.C71_violated_misplaced"
   ],
   "note": "Erases exactly the particle if it is in the leaf its position selects. **Violated**: `C71_violated_size` (deletion through an iterator leaves `size()` unchanged), `C71_violated_empty_leaf` (undefined behaviour: `pop_back` on an empty leaf), `C71_violated_misplaced` (another particle is moved into a wrong leaf, and a close pair no longer interacts). Partial because of the defects."
  },
  {
   "property": "C72",
   "status": "partial",
   "theorems": [
    "Verif.C72_threads_partition_partial",
    "Verif.C72_region_exact_partial",
    "Verif.C72_modify_partial",
    "Verif.C72_storage",
    "Verif.C72_violated_empty_region",
    "Verif.C72_violated_dummies"
   ],
   "note": "Simulation: the iterator over the trees and the iterator over the list of all leaves (of which C31\u2013C33 know everything) stay at corresponding places, for every loop body. **Violated**: `C72_violated_empty_region` (an empty region makes the iterator read behind the eight children of a node), `C72_violated_dummies` (dummies among the owned particles are not visited by a dummy-only iterator). Partial because of the defects; trees deeper than 18 (boxes wider than 500000 interaction lengths), where the decimal index overflows `size_t`, are excluded."
  },
  {
   "property": "C73",
   "status": "partial",
   "theorems": [
    "Verif.C73_aos_forces",
    "Verif.C73_aos_globals",
    "Verif.C73_cell_forces_partial",
    "Verif.C73_cell_pair_forces_partial",
    "Verif.C73_list_forces_partial",
    "Verif.C73_cell_as_aos_partial",
    "Verif.C73_cell_pair_as_aos_partial",
    "Verif.C73_list_as_aos_partial",
    "Verif.C73_violated_on_deleted_particle"
   ],
   "note": "Every kernel is shown to add the sum of directed interactions (`ljEvent`) of its documented AoS calls, by induction over its loops. **Violated**: `C73_violated_on_deleted_particle` (the SoA kernels turn a deleted particle on the position of an existing one into NaN forces). Partial because of the defect: the theorems about SoA kernels ask for different positions. No rounding or overflow."
  },
  {
   "property": "C74",
   "status": "proved",
   "theorems": [
    "Verif.C74_forces",
    "Verif.C74_potential_energy",
    "Verif.C74_virial",
    "Verif.C74_total_force_zero"
   ],
   "note": "C52 (completeness) + C73 (kernels), sums over permutations. SoA buffers are loaded around each kernel call; linked cells only."
  },
  {
   "property": "C75",
   "status": "proved",
   "theorems": [
    "Verif.C75_pair_force",
    "Verif.C75_force_is_minus_gradient"
   ],
   "note": "Derivatives of `ljU` with Mathlib's calculus, C73 for the kernel. Interior of the cutoff sphere; pair energies."
  },
  {
   "property": "C76",
   "status": "partial",
   "theorems": [
    "Verif.C76_registered_values_partial",
    "Verif.C76_rejected_calls_partial",
    "Verif.C76_lennard_jones_mixing_partial",
    "Verif.C76_lennard_jones_symmetric_partial",
    "Verif.C76_axilrod_teller_mixing_partial",
    "Verif.C76_molecules_partial",
    "Verif.C76_violated_molecule_without_lennard_jones",
    "Verif.C76_violated_stale_coefficients",
    "Verif.C76_violated_documentation"
   ],
   "note": "Invariant between the vectors and a functional registry, by induction over the history; index arithmetic of the flat tables. **Violated**: `C76_violated_molecule_without_lennard_jones` (reads `_sigmas` out of bounds), `C76_violated_stale_coefficients` (lookups between a new site type and the next calculation), `C76_violated_documentation` (molecule ids cannot be overwritten, no exception without types). Partial because of the defects."
  },
  {
   "property": "C77",
   "status": "proved",
   "theorems": [
    "Verif.C77_forces_are_gradients",
    "Verif.C77_energy",
    "Verif.C77_nothing_beyond_cutoff",
    "Verif.C77_newton3_is_three_calls",
    "Verif.C77_violated_virial_depends_on_origin",
    "Verif.C77_violated_operation_count"
   ],
   "note": "Derivative of the energy written with square roots, polynomial identity for the direction terms (`at_identity`). Beside it: `C77_violated_virial_depends_on_origin` (f\u00b7r over owned particles only: with halo particles it depends on the origin of the coordinates), `C77_violated_operation_count` (documented as counted since initTraversal, never reset). Exact real arithmetic."
  },
  {
   "property": "C78",
   "status": "partial",
   "theorems": [
    "Verif.C78_every_two_neighbours_once",
    "Verif.C78_nothing_twice",
    "Verif.C78_accumulates_sum",
    "Verif.C78_no_write_conflict",
    "Verif.C78_direct_sum_partial",
    "Verif.C78_direct_sum_accumulates_partial"
   ],
   "note": "A call with base cell A, cells B, C reaches the triple exactly if the three home cells are A, B, C (`C01Item.hits`); the offset pairs contain every pair of neighbour cells once (`c01_triwise_once`); induction over histories from C52; `CompleteCalls3.accumulated` turns counts into sums. Direct sum: skin \u2264 cutoff (`_partial`, same cause as C54). AoS only: the code has no SoA three-body functors."
  },
  {
   "property": "C79",
   "status": "proved",
   "theorems": [
    "Verif.C79_forces",
    "Verif.C79_potential_energy",
    "Verif.C79_total_force_zero"
   ],
   "note": "Every call is a sum of directed events (`atAoSCall_eq`), events add up (`atJobs_total`), complete calls give the sum over pairs (C78), pairs per particle give triples (`triple_sum`), gradient of a sum. Linked cells; exact real arithmetic; no two particles on the same spot or exactly at the cutoff. The virial is not claimed (C77_violated_virial_depends_on_origin)."
  },
  {
   "property": "C80",
   "status": "proved",
   "theorems": [
    "Verif.C80_exactly_once",
    "Verif.C80_at_most_once",
    "Verif.C80_every_neighbour_once",
    "Verif.C80_accumulates_sum"
   ],
   "note": "The slices of the offset table are prefixes of each other towards the middle (`c01Slices_left/right`), so the ring invariant `RingOk` survives a shift; calls per base cell are a permutation of the calls of `lc_c01` up to halo cells; bounded below and above by C51. A buffer is the list of its particles. Halo cells that are base cells may receive contributions in the middle slice (the code calls the functor directly there); they are received at most once."
  },
  {
   "property": "C81",
   "status": "proved",
   "theorems": [
    "Verif.C81_sum_of_contributions",
    "Verif.C81_accumulates_sum",
    "Verif.C81_row_uses_its_cells",
    "Verif.C81_rows_disjoint"
   ],
   "note": "Invariant `Holding`: the slots hold exactly the columns at and right of the base cell, each particle with what it has got so far; `row_hold`, `lcC04Combined_hold`; the calls of all rows are a permutation of those of `lc_c08` on open cells (`rows_open`); race freedom by `OnlyOn`. Overlap 1 (what isApplicable demands). The functor adds `F a b` to the receiver; an SoA is a list of particle-value pairs."
  },
  {
   "property": "C82",
   "status": "partial",
   "theorems": [
    "Verif.C82_history_partial",
    "Verif.C82_throws_or_right_partial",
    "Verif.C82_flush_partial",
    "Verif.C82_forces_partial",
    "Verif.C82_violated_delete_all",
    "Verif.C82_violated_add_throws"
   ],
   "note": "Invariant `LRInv`: all pointers are of the current generation, distinct, and cover all non-dummy particles of the vector; the view through the pointers behaves as the cells of LinkedCells, so its lemmas apply; forces by C51. Violations: `deleteAllParticles` clears the cells only, so the particles come back (`C82_violated_delete_all`); adding a particle while the vector is full re-sorts everything and throws if an owned particle is outside the box, which `LogicHandler::updateContainer` provokes by flushing buffers first (`C82_violated_add_throws`). `C82_history_partial` and `C82_forces_partial` exclude both; `C82_throws_or_right_partial` excludes only the former. Histories shorter than 2^64. Iteration order of the parallel part of updateContainer is an arbitrary permutation."
  },
  {
   "property": "C83",
   "status": "partial",
   "theorems": [
    "Verif.C83_decomposition_partial",
    "Verif.C83_violated_nothing_to_divide",
    "Verif.C83_index_of_id",
    "Verif.C83_id_of_index",
    "Verif.C83_local_boxes_tile",
    "Verif.C83_exactly_one_rank"
   ],
   "note": "Loop invariants (no divisor below `i` is left); merging keeps the product; mixed radix arithmetic; the cuts of the grid. Violation: nothing may be divided and two or more ranks: front of an empty list (`C83_violated_nothing_to_divide`). Exact arithmetic; MPI_Cart_create not modelled."
  },
  {
   "property": "C84",
   "status": "partial",
   "theorems": [
    "Verif.C84_world_partial",
    "Verif.C84_halo_partial",
    "Verif.C84_partners_present_partial",
    "Verif.C84_violated_spurious_ghost",
    "Verif.C84_violated_missing_partner",
    "Verif.C84_violated_far_from_origin"
   ],
   "note": "One round turns `own ++ halo` into the images along this dimension; three rounds compose to all images within reach (`exchangeHalo_perm`). Partial: y and z periodic or undivided, local boxes two interaction lengths wide in y and z, global box not further than 10^9 interaction lengths from the origin. Violations: `C84_violated_spurious_ghost` (halo particles are forwarded around the box without checking for periodicity), `C84_violated_missing_partner` (`else if`), `C84_violated_far_from_origin` (`isNearRel`). Messages arrive completely and in order; exact arithmetic."
  },
  {
   "property": "C85",
   "status": "partial",
   "theorems": [
    "Verif.C85_migration_partial",
    "Verif.C85_right_rank_partial",
    "Verif.C85_position",
    "Verif.C85_violated_open_boundary",
    "Verif.C85_violated_reflecting_wall"
   ],
   "note": "Invariant `Moving` over the dimensions still to come; an exchange is a permutation of all messages (`exchange_all`). Partial: in non-periodic dimensions the particles have not left the global box. Violations: `C85_violated_open_boundary` (vanishes with one rank, comes back at the other side with two), `C85_violated_reflecting_wall`. One send step per dimension (not the ALL library)."
  },
  {
   "property": "C86",
   "status": "partial",
   "theorems": [
    "Verif.C86_balance_keeps_tiling_partial",
    "Verif.C86_particles_stay_close",
    "Verif.C86_violated_narrow",
    "Verif.C86_violated_no_load"
   ],
   "note": "Both sides of a wall compute the same position; half the way to a position `minWidth` away from the outer walls keeps widths at least `minWidth`. Partial: widths at least twice the interaction length before, loads positive. Violations: `C86_violated_narrow`, `C86_violated_no_load`. Exact arithmetic."
  },
  {
   "property": "C87",
   "status": "partial",
   "theorems": [
    "Verif.C87_step_partial",
    "Verif.C87_run_partial",
    "Verif.C87_partners_partial"
   ],
   "note": "Invariant `InPlace`, by C84, C85, C86. Partial as these. The containers are represented by what the API promises (their own properties: C25, C29, C51 ...); the particles in insertion buffers missed by `resizeBox` (C29) are not represented."
  },
  {
   "property": "C88",
   "status": "partial",
   "theorems": [
    "Verif.C88_step_partial",
    "Verif.C88_velocity_verlet_partial",
    "Verif.C88_no_exception",
    "Verif.C88_momentum_partial",
    "Verif.C88_reversible_partial",
    "Verif.C88_uniform_force_exact_partial",
    "Verif.C88_speed_check_partial",
    "Verif.C88_distance_moved_partial",
    "Verif.C88_lists_stay_valid_partial",
    "Verif.C88_violated_first_step",
    "Verif.C88_violated_small_skin"
   ],
   "note": "Induction over the steps from `ForcesUpToDate`; particle loops commute since each body is visited once (`Schedule`). Partial: the forces stored at the start have to be those at the starting positions; the skin per time step has to exceed 2e-6 for the speed check. Violations: `C88_violated_first_step` (generated particles start with force zero), `C88_violated_small_skin`. Exact arithmetic; single-site molecules; no migration (C85, C87)."
  },
  {
   "property": "C89",
   "status": "partial",
   "theorems": [
    "Verif.C89_trajectory_partial",
    "Verif.C89_one_step_per_iteration_partial",
    "Verif.C89_violated_reflecting_wall"
   ],
   "note": "Invariant `PauseInv`: in a pause the bodies are half way through a Verlet step (`HalfWay`). Partial: without reflective walls (`C89_violated_reflecting_wall`). As C88."
  },
  {
   "property": "C90",
   "status": "partial",
   "theorems": [
    "Verif.C90_temperature",
    "Verif.C90_apply_partial",
    "Verif.C90_reaches_target_partial",
    "Verif.C90_stays_at_target_partial",
    "Verif.C90_violated_at_rest",
    "Verif.C90_violated_target_zero",
    "Verif.C90_violated_halo",
    "Verif.C90_violated_calcTemperature"
   ],
   "note": "Sums over ranks and threads are sums over a list of all particles (`Contains`). Partial: temperatures positive; halo particles count. Violations: `C90_violated_at_rest`, `C90_violated_target_zero`, `C90_violated_halo`, `C90_violated_calcTemperature`. Exact arithmetic; no Brownian motion; single-site molecules."
  },
  {
   "property": "C91",
   "status": "partial",
   "theorems": [
    "Verif.C91_wall_forces_partial",
    "Verif.C91_inward",
    "Verif.C91_repels",
    "Verif.C91_violated_on_the_wall"
   ],
   "note": "A rank that owns a particle within reach of a wall is at the wall, by the tiling of C83. Partial: not for a particle on a wall (`C91_violated_on_the_wall`). The constant for the sixth root of two is a parameter (`C91_repels` needs its sixth power to be at most two; the double in the code exceeds this by 4e-16). Exact arithmetic; single-site molecules."
  },
  {
   "property": "C92",
   "status": "partial",
   "theorems": [
    "Verif.C92_switch_partial",
    "Verif.C92_parameters",
    "Verif.C92_switches_partial",
    "Verif.C92_during_simulation_partial",
    "Verif.C92_violated_moved",
    "Verif.C92_violated_far_halo"
   ],
   "note": "Invariant `StoreInv` of the copy loop per container; `C92_switches_partial` by induction; `C92_during_simulation_partial` connects it to the histories of C25. Partial: owned particles inside the box, halo particles outside and not farther than the interaction length, at the time of a switch. Violations: `C92_violated_moved` (exception), `C92_violated_far_halo` (octree loses a particle). Loops over the old container are taken to come to every particle that is not a dummy (proved for the iterators in C30, C64, C72). Neighbour lists are rebuilt afterwards (C24)."
  },
  {
   "property": "C93",
   "status": "proved",
   "theorems": [
    "Verif.C93_rotates",
    "Verif.C93_many",
    "Verif.C93_backwards",
    "Verif.C93_conjugate",
    "Verif.C93_compose",
    "Verif.C93_products",
    "Verif.C93_sandwich",
    "Verif.C93_axis_angle",
    "Verif.C93_mirror",
    "Verif.C93_rigid"
   ],
   "note": "Polynomial identities (`linear_combination`). Rounding."
  },
  {
   "property": "C94",
   "status": "partial",
   "theorems": [
    "Verif.C94_rigid",
    "Verif.C94_step_ends_partial",
    "Verif.C94_violated_hangs",
    "Verif.C94_angular_momentum_partial",
    "Verif.C94_global_torque",
    "Verif.C94_free_rotation_partial",
    "Verif.C94_violated_angular_momentum",
    "Verif.C94_violated_pause"
   ],
   "note": "`C94_rigid` by induction over the steps; `C94_step_ends_partial`: the loop is a contraction on unit quaternions if the molecule turns by less than two radians per step; `C94_angular_momentum_partial`, `C94_free_rotation_partial` for equal moments of inertia. Violations: `C94_violated_hangs` (more than \u221a17 radians per step: the loop never ends), `C94_violated_angular_momentum` (unequal moments of inertia: gyroscopic term missing), `C94_violated_pause` (torques are not reset while paused). One molecule: the loops treat molecules one by one. Rounding: the loop may also hang because of rounding."
  },
  {
   "property": "C95",
   "status": "proved",
   "theorems": [
    "Verif.C95_forces_torques",
    "Verif.C95_globals",
    "Verif.C95_soa_cell",
    "Verif.C95_soa_pair",
    "Verif.C95_soa_list",
    "Verif.C95_conservation",
    "Verif.C95_rigid_motion",
    "Verif.C95_all_molecules",
    "Verif.C95_torque_is_minus_derivative",
    "Verif.C95_force_is_minus_gradient"
   ],
   "note": "Every kernel is the start state plus a sum of events of pairs of molecules (`Lemmas/LJMultisite.lean`, `Lemmas/LJMultisiteSoA.lean`, by induction over the molecules with the flat site index as a list of visits); the events are the textbook sums (`Lemmas/LJMultisiteSums.lean`); `C95_all_molecules` builds on complete lists of calls (C03, C13, C74). Derivatives with Mathlib's `HasDerivAt`. Without mixing the functor cannot be used (see below) and is not modelled. Rounding; reading the library of site properties."
  },
  {
   "property": "C96",
   "status": "partial",
   "theorems": [
    "Verif.C96_single_site",
    "Verif.C96_multi_site",
    "Verif.C96_messages_partial",
    "Verif.C96_messages_multi_site_partial",
    "Verif.C96_too_long_aborts",
    "Verif.C96_too_long_corrupts"
   ],
   "note": "Invariant of the byte offset over the attributes, induction over particles and messages; words are recovered from their bytes bit by bit. Partial: messages of 2^31 bytes or more abort or corrupt (`C96_too_long_aborts`, `C96_too_long_corrupts`). MPI itself is assumed (no overtaking)."
  },
  {
   "property": "C97",
   "status": "partial",
   "theorems": [
    "Verif.C97_line_partial",
    "Verif.C97_line_later_partial",
    "Verif.C97_regression_partial",
    "Verif.C97_newton_partial",
    "Verif.C97_last_partial",
    "Verif.C97_more_measurements",
    "Verif.C97_queue",
    "Verif.C97_best_first",
    "Verif.C97_retested",
    "Verif.C97_watch_list",
    "Verif.C97_unmeasured_forgotten",
    "Verif.C97_newton_later_undefined",
    "Verif.C97_newton_history_undefined",
    "Verif.C97_newton_later_wrong",
    "Verif.C97_regression_wrong"
   ],
   "note": "Least squares by the normal equations; divided differences by induction, uniqueness of interpolation; queue by invariants of the loops; retest interval by induction over histories of phases. Partial: regression only if the mean is not truncated (`C97_regression_wrong`); Newton's polynomial is wrong or undefined when reused (`C97_newton_later_undefined`, `C97_newton_later_wrong`); configurations without measurements are forgotten (`C97_unmeasured_forgotten`)."
  },
  {
   "property": "C98",
   "status": "proved",
   "theorems": [
    "Verif.C98_kernel",
    "Verif.C98_kernel_normalised",
    "Verif.C98_gradient",
    "Verif.C98_density",
    "Verif.C98_layout"
   ],
   "note": "The kernel is rewritten as the textbook spline; its derivative and integral (in polar coordinates) by Mathlib's calculus; SoA kernels add the same events as AoS calls (`gKernelCall_eq`), with completeness (C52) they sum up to the spec reals instead of doubles; linked cells container; sph-main's halo exchange and leap frog loop not modelled"
  },
  {
   "property": "C99",
   "status": "partial",
   "theorems": [
    "Verif.C99_forces_partial",
    "Verif.C99_signal_speed_partial",
    "Verif.C99_momentum_partial",
    "Verif.C99_energy_partial",
    "Verif.C99_order_matters",
    "Verif.C99_momentum_violated",
    "Verif.C99_equation_of_state",
    "Verif.C99_time_step"
   ],
   "note": "as C98, with accelerations and heats in an additive monoid and signal speeds in the max monoid; conservation by antisymmetry of the summands partial: only for equal smoothing lengths; otherwise false (`C99_order_matters`, `C99_momentum_violated`)"
  },
  {
   "property": "C100",
   "status": "proved",
   "theorems": [
    "Verif.C100_cell_as_aos",
    "Verif.C100_cell_pair_as_aos",
    "Verif.C100_list_as_aos",
    "Verif.C100_cell_forces",
    "Verif.C100_compute",
    "Verif.C100_same_as_plain",
    "Verif.C100_list_needs_distinct_neighbours"
   ],
   "note": "every register block adds the events of its lanes (`avxKernel_eq`), blocks and rest cover all indices (`avxInner_eq`), so each kernel equals the AoS calls it stands for; with completeness (C52) the container-level sums follow no rounding; ownership compared as integers, the code compares denormal doubles (breaks if denormals are flushed to zero); container level for linked cells"
  },
  {
   "property": "C101",
   "status": "partial",
   "theorems": [
    "Verif.C101_tested_partial",
    "Verif.C101_verify_tests_all_partial",
    "Verif.C101_fastest_overall_partial",
    "Verif.C101_verify_reports",
    "Verif.C101_verify_reports_any_phase",
    "Verif.C101_verify_saved_time",
    "Verif.C101_violated_no_counterpart",
    "Verif.C101_violated_overlap",
    "Verif.C101_violated_stale_times"
   ],
   "note": "the strategy selects a subset at reset and leaves the queue alone afterwards (`Narrows`), the tuner then behaves as full search on this subset (`narrowed_interval`), induction over phases; induction over the evidence for the reports **Violations**: a configuration is removed even if nothing available is better (`C101_violated_no_counterpart`), contradictions of configurations matching both sides are missed (`C101_violated_overlap`), times of earlier phases are compared (`C101_violated_stale_times`). Side conditions on the interval as in C37"
  },
  {
   "property": "C102",
   "status": "proved",
   "theorems": [
    "Verif.C102_compatible_iff_executable",
    "Verif.C102_search_space",
    "Verif.C102_distinct",
    "Verif.C102_interval_rejected",
    "Verif.C102_always_applicable",
    "Verif.C102_slices_fit",
    "Verif.C102_init_finite",
    "Verif.C102_violated_interval_empty",
    "Verif.C102_violated_interval_redundant",
    "Verif.C102_never_balanced"
   ],
   "note": "finite tables compared by kernel computation over all options (`decide +kernel` over complete enumerations, with the domain geometry universally quantified), membership in the nested loops by structural reasoning for arbitrary sets **Violation**: for an interval of cell size factors `init` multiplies cutoff and skin (`C102_violated_interval_empty`, `C102_violated_interval_redundant`). Load estimators implemented for linked cells with references and pairwise lists are never offered (`C102_never_balanced`)"
  },
  {
   "property": "C103",
   "status": "partial",
   "theorems": [
    "Verif.C103_degree",
    "Verif.C103_boolean",
    "Verif.C103_trapezoid",
    "Verif.C103_triangle",
    "Verif.C103_sigmoidFinite",
    "Verif.C103_violated_shoulder",
    "Verif.C103_center_of_gravity",
    "Verif.C103_unknown_interpretation",
    "Verif.C103_center_in_range",
    "Verif.C103_violated_no_rule_fires",
    "Verif.C103_mean_of_maximum",
    "Verif.C103_maximum_in_range",
    "Verif.C103_rule_order",
    "Verif.C103_violated_point_range",
    "Verif.C103_closest",
    "Verif.C103_suitability",
    "Verif.C103_violated_negative_suitability",
    "Verif.C103_patterns_partial",
    "Verif.C103_violated_cell_size_factor",
    "Verif.C103_reset",
    "Verif.C103_tested_partial",
    "Verif.C103_rules_of_system"
   ],
   "note": "inequalities over ordered fields, induction over sets, rules and samples; weighted means; the tuner history by the simulation of C101, generalised to reversed queues **Violations**: cell size factors in patterns are ignored (`C103_violated_cell_size_factor`), prediction 0 outside of the range if no rule fires (`C103_violated_no_rule_fires`), endless loop for a range of one value (`C103_violated_point_range`), nothing selected for negative suitabilities (`C103_violated_negative_suitability`), a trapezoid with a vertical slope is 0 at its edge (`C103_violated_shoulder`). Side conditions of C37 for the histories"
  },
  {
   "property": "C104",
   "status": "partial",
   "theorems": [
    "Verif.C104_grid",
    "Verif.C104_sphere",
    "Verif.C104_closest_packed",
    "Verif.C104_closest_packed_touch",
    "Verif.C104_uniform",
    "Verif.C104_gauss",
    "Verif.C104_number_partial",
    "Verif.C104_violated_number",
    "Verif.C104_particles",
    "Verif.C104_ids",
    "Verif.C104_inside",
    "Verif.C104_box",
    "Verif.C104_periodic",
    "Verif.C104_violated_gauss_mean"
   ],
   "note": "closed forms of the loops by induction, lattices by injectivity and inequalities with square roots, the box by monotonicity over the list of objects Partial: the reported number is computed as `int` and overflows for more than 2\u00b3\u00b9 grid particles (`C104_violated_number`). **Violation**: the mean of a gauss object is absolute although documented as relative to the box (`C104_violated_gauss_mean`). Reading the objects from YAML is not modelled"
  },
  {
   "property": "C105",
   "status": "partial",
   "theorems": [
    "Verif.C105_roundtrip_partial",
    "Verif.C105_accuracy",
    "Verif.C105_again",
    "Verif.C105_inside_partial",
    "Verif.C105_writes",
    "Verif.C105_violated_empty_rank",
    "Verif.C105_violated_name",
    "Verif.C105_violated_plain_name",
    "Verif.C105_violated_nan",
    "Verif.C105_violated_border",
    "Verif.C105_violated_large_box",
    "Verif.C105_violated_tie"
   ],
   "note": "text of a number is read back as the closest decimal number (division with remainder, logarithms), the search for words by its state after each part of the file, any order of writing by permutations of distinct paths Partial: **violations** for ranks without particles (`C105_violated_empty_rank`), session names with a word `Piece\u2026` (`C105_violated_name`), file names without directory (`C105_violated_plain_name`), NaN or infinite values (`C105_violated_nan`), and positions next to borders with more than six digits, borders of a million or negative ones (`C105_violated_border`, `_large_box`, `_tie`). Ownership (only owned particles are written) and VTK files of the domain are not modelled"
  },
  {
   "property": "C106",
   "status": "partial",
   "theorems": [
    "Verif.C106_distributed",
    "Verif.C106_outside",
    "Verif.C106_run",
    "Verif.C106_restart_partial",
    "Verif.C106_objects"
   ],
   "note": "filters over a tiling of the box, permutations; composed with the checkpoint (C105) and the simulation loop (C87) `C106_restart_partial` inherits the restrictions of C105. The order in which threads add particles is not modelled, results are up to order; message passing is taken as reliable and ordered"
  },
  {
   "property": "C107",
   "status": "proved",
   "theorems": [
    "Verif.C107_fit",
    "Verif.C107_constant",
    "Verif.C107_line",
    "Verif.C107_never_higher",
    "Verif.C107_violated_outlier",
    "Verif.C107_violated_window",
    "Verif.C107_violated_same_iteration",
    "Verif.C107_violated_no_points"
   ],
   "note": "normal equations of weighted least squares by moments, by induction over the points; uniqueness of the fit **Violations**: a configuration that became faster gets negative evidence and beats one measured to be twice as fast (`C107_violated_outlier`); the result depends on measurements outside of the neighbourhood (`C107_violated_window`); several measurements in one iteration give 0/0 instead of the documented unchanged value (`C107_violated_same_iteration`); `back()` of no points (`C107_violated_no_points`)"
  },
  {
   "property": "C108",
   "status": "partial",
   "theorems": [
    "Verif.C108_random_partial",
    "Verif.C108_any_order",
    "Verif.C108_violated_small_space",
    "Verif.C108_sorted_queue",
    "Verif.C108_sorted_partial"
   ],
   "note": "the state of the tuner between tuning intervals as invariant (`IntervalBegin`), one interval by induction over the configurations tested, histories by induction partial: all configurations applicable and at least as many as are to be tested; **violated** for smaller search spaces (`C108_violated_small_space`: choice from an empty queue). The first configuration of a phase is never random"
  },
  {
   "property": "C109",
   "status": "partial",
   "theorems": [
    "Verif.C109_evidence",
    "Verif.C109_logged",
    "Verif.C109_live_info",
    "Verif.C109_first_phase_partial",
    "Verif.C109_single_phase",
    "Verif.C109_violated_later_phases",
    "Verif.C109_violated_wipe",
    "Verif.C109_violated_truncated",
    "Verif.C109_violated_decimals"
   ],
   "note": "round trip per field, then by induction over infos and lines; replay by induction over queue and entries; `Done` is the invariant behind the first evaluation partial: proved for the *first* logged phase (`C109_first_phase_partial`), hence for logs of one phase; **violated** for later phases (`C109_violated_later_phases`), strategies that empty the queue (`C109_violated_wipe`), logs cut inside a measurement (`C109_violated_truncated`), cell size factors with more than six decimals (`C109_violated_decimals`). Configurations are compared exactly"
  },
  {
   "property": "C110",
   "status": "partial",
   "theorems": [
    "Verif.C110_all_measure_partial",
    "Verif.C110_whole_search_space",
    "Verif.C110_violated_ranks_wait_for_ever",
    "Verif.C110_violated_optimum_not_shared",
    "Verif.C110_violated_first_rejected",
    "Verif.C110_violated_last_rejected",
    "Verif.C110_rejected_not_again",
    "Verif.C110_buckets"
   ],
   "note": "one lemma for a round with the optimum of each rank and the stretched queues, then induction over the remaining rounds with the invariant that every queue has the longest length, or one less and at least two; buckets by induction over the sorted metrics partial: proved if the number of configurations is a multiple of the number of ranks, at least twice, or less than it, and everything is applicable (`C110_all_measure_partial`); **violated** between (`C110_violated_ranks_wait_for_ever`), for the shared optimum (`C110_violated_optimum_not_shared`) and for rejected configurations (`C110_violated_first_rejected`, `C110_violated_last_rejected`). Measured times depend on rank and configuration only; other strategies and the collective calls of the rest of the program are not modelled"
  },
  {
   "property": "C111",
   "status": "partial",
   "theorems": [
    "Verif.C111_linkedCells",
    "Verif.C111_linkedCells_region",
    "Verif.C111_unnamed_throws",
    "Verif.C111_directSum_partial",
    "Verif.C111_octree_partial",
    "Verif.C111_history_partial",
    "Verif.C111_violated_buffers",
    "Verif.C111_violated_dummies",
    "Verif.C111_violated_octree_region"
   ],
   "note": "LinkedCells exact for all named behaviours, also by regions if no particle moved further than the skin; DirectSum exact without dummies; Octree exact without dummies and (regions) without moves; after any history, the particles visited plus those in the buffers are what AutoPas should hold. Fails for buffered particles, for dummies in DirectSum and Octree, and for regions of an Octree after moves (witnesses). VerletClusterLists and LinkedCellsReferences are not modelled here; a `reduce` lambda is taken not to change particles."
  },
  {
   "property": "C112",
   "status": "partial",
   "theorems": [
    "Verif.C112_grid",
    "Verif.C112_counts",
    "Verif.C112_averages_partial",
    "Verif.C112_violated_stdDev",
    "Verif.C112_violated_average",
    "Verif.C112_violated_many_cells",
    "Verif.C112_homogeneity",
    "Verif.C112_homogeneous",
    "Verif.C112_homogeneity_total"
   ],
   "note": "Numbers, empty cells, minimum, maximum and estimate equal those of a grid of half-open cells, for every container (`C112_counts`, `C112_grid`); homogeneity is the standard deviation of the bin densities, 0 exactly if all bins hold equally many, and always defined. Average and standard deviations only without halo particles and up to a factor; the code subtracts the halo particles from a number that does not contain them, divides by the number of cells instead of its root, and overflows `int` (witnesses). `double` exact; `particlesPerBlurredCellStdDev` of an average 0 is no number; copies of parameters are left out."
  },
  {
   "property": "C113",
   "status": "partial",
   "theorems": [
    "Verif.C113_whole_partial",
    "Verif.C113_const",
    "Verif.C113_region_partial",
    "Verif.C113_padding",
    "Verif.C113_violated_padding",
    "Verif.C113_violated_region"
   ],
   "note": "Named behaviours without dummies: exact for all contents and grids (`C113_whole_partial`), read-only version (`C113_const`); regions exact for grids with equally many towers per interaction length in x and y when particles moved at most half the skin (`C113_region_partial`). Witnesses for padding and for uneven grids. The order of visits inside of a region is not fixed; `std::vector` as lists."
  },
  {
   "property": "C114",
   "status": "partial",
   "theorems": [
    "Verif.C114_phase_partial",
    "Verif.C114_rejected",
    "Verif.C114_violated_best_first",
    "Verif.C114_violated_abort"
   ],
   "note": "General theory of phases for all strategies that only reorder and remove (`Lemmas/ShrinkingPhase`, `Spec/Phases`), instantiated (`C114_phase_partial`). Witnesses: smallest value first, no exception. Only applicable configurations; the Gaussian process is an arbitrary function here (see C115)."
  },
  {
   "property": "C115",
   "status": "proved",
   "theorems": [
    "Verif.C115_evidence",
    "Verif.C115_prediction",
    "Verif.C115_no_evidence",
    "Verif.C115_likelihood",
    "Verif.C115_variance_gap",
    "Verif.C115_violated_variance"
   ],
   "note": "Powers and exponentials of inner products are positive semidefinite, hence the matrix is positive definite; completing the square; determinant of the Cholesky factor; induction over histories. `C115_evidence`, `C115_prediction`, `C115_no_evidence`, `C115_likelihood`, `C115_variance_gap`; violation for the variance by a limit far away from all observations. Reals instead of doubles; `addEvidence` without tuning is not modelled; the inverse of Eigen is exact."
  },
  {
   "property": "C116",
   "status": "proved",
   "theorems": [
    "Verif.C116_sample",
    "Verif.C116_interval",
    "Verif.C116_subset",
    "Verif.C116_set",
    "Verif.C116_set_finite",
    "Verif.C116_median",
    "Verif.C116_pick",
    "Verif.C116_lhs_cluster",
    "Verif.C116_lhs",
    "Verif.C116_extra",
    "Verif.C116_violated_never_drawn",
    "Verif.C116_violated_lhs",
    "Verif.C116_violated_pick_empty",
    "Verif.C116_violated_no_options"
   ],
   "note": "The sample is a permutation of whole copies and a prefix of the pool; counts follow (`C116_sample`, `C116_interval`, `C116_subset`, `C116_set`, `C116_pick`, `C116_lhs`, `C116_extra`). Witnesses: the extra elements are always the first ones, empty sets. Probabilities are not modelled; rationals instead of doubles."
  },
  {
   "property": "C117",
   "status": "proved",
   "theorems": [
    "Verif.C117_probability",
    "Verif.C117_expected",
    "Verif.C117_confidence",
    "Verif.C117_density",
    "Verif.C117_prefers",
    "Verif.C117_positive",
    "Verif.C117_process",
    "Verif.C117_sample_max",
    "Verif.C117_violated_no_samples"
   ],
   "note": "Against the normal distribution of Mathlib: substitution, standardisation, integration by the antiderivative (`C117_probability`, `C117_expected`, `C117_confidence`, `C117_density`, `C117_prefers`, `C117_positive`), applied to all histories of C115 (`C117_process`), choice (`C117_sample_max`). `std::erfc` is taken to be the integral; reals instead of doubles."
  },
  {
   "property": "C118",
   "status": "partial",
   "theorems": [
    "Verif.C118_covers_partial",
    "Verif.C118_interval_partial",
    "Verif.C118_violated_no_traversal",
    "Verif.C118_violated_forbidden_estimator",
    "Verif.C118_violated_interval_outside",
    "Verif.C118_violated_interval_lost"
   ],
   "note": "The iterators stand at the k-th element of the list of all combinations; invariant of the counters gives coverage and counts; `C118_covers_partial` (finite factors), `C118_interval_partial` (ranks a proper multiple of the configurations); violations with witnesses. Sets are lists without order by value; `double` as rational; the violated parts (containers without traversal, other numbers of ranks for intervals)."
  },
  {
   "property": "C119",
   "status": "partial",
   "theorems": [
    "Verif.C119_reciprocal",
    "Verif.C119_cell_as_aos_partial",
    "Verif.C119_cell_pair_as_aos_partial",
    "Verif.C119_list_as_aos_partial",
    "Verif.C119_cell_forces_partial",
    "Verif.C119_compute_partial",
    "Verif.C119_same_as_plain_partial",
    "Verif.C119_violated_pair_first_type",
    "Verif.C119_violated_lane_types",
    "Verif.C119_violated_list_first_type",
    "Verif.C119_list_needs_distinct_neighbours"
   ],
   "note": "the effect of a register is an addition of the interactions of its entries; loops by induction over their steps; the system as in C100. Counterexamples for particles of different types the functor does not work with mixing of different types: `_partial` assumes equal parameters, `C119_violated_*` show the three errors; reciprocal exact in the kernels, its iteration in `C119_reciprocal`"
  },
  {
   "property": "C120",
   "status": "partial",
   "theorems": [
    "Verif.C120_runs",
    "Verif.C120_clusters",
    "Verif.C120_evidence_partial",
    "Verif.C120_extremes",
    "Verif.C120_prediction",
    "Verif.C120_likelihood",
    "Verif.C120_samples",
    "Verif.C120_mixture",
    "Verif.C120_between",
    "Verif.C120_neighbour_throws",
    "Verif.C120_best",
    "Verif.C120_violated_no_samples",
    "Verif.C120_ordered",
    "Verif.C120_violated_clear"
   ],
   "note": "an invariant (`GaussCluster.Knows`) over histories; the index is a bijection on vectors in bounds; the mixture as a weighted mean by induction over neighbours reals instead of doubles; random samples as arbitrary permutations of the grid as in C115; `clear` violates its documentation (`C120_violated_clear`), hence `C120_evidence_partial`; `max_element` of nothing (`C120_violated_no_samples`)"
  },
  {
   "property": "C121",
   "status": "partial",
   "theorems": [
    "Verif.C121_phases_partial",
    "Verif.C121_suggestions",
    "Verif.C121_violated_rejected",
    "Verif.C121_not_rejected",
    "Verif.C121_violated_abort",
    "Verif.C121_violated_best_first"
   ],
   "note": "the phases of strategies that only shrink the queue (as C114), the first phase separately; histories of rejections by induction configurations that are all applicable (`C121_phases_partial`); `C121_violated_best_first`, `C121_violated_rejected`, `C121_violated_abort`"
  },
  {
   "property": "C122",
   "status": "proved",
   "theorems": [
    "Verif.C122_halo",
    "Verif.C122_partners_present",
    "Verif.C122_entering",
    "Verif.C122_none_lost",
    "Verif.C122_step",
    "Verif.C122_setup",
    "Verif.C122_serial_halo",
    "Verif.C122_serial_entering",
    "Verif.C122_violated_fast_particle",
    "Verif.C122_violated_narrow_box"
   ],
   "note": "one dimension: the regions sent are disjoint parts of the widened box of the receiver; three dimensions by products; permutations of lists exact arithmetic; `C122_violated_fast_particle`, `C122_violated_narrow_box`"
  },
  {
   "property": "C123",
   "status": "proved",
   "theorems": [
    "Verif.C123_messages",
    "Verif.C123_no_deadlock",
    "Verif.C123_terminates",
    "Verif.C123_bounded",
    "Verif.C123_end",
    "Verif.C123_schedule",
    "Verif.C123_partners",
    "Verif.C123_exchange",
    "Verif.C123_halo",
    "Verif.C123_entering"
   ],
   "note": "invariant on queues and logs over all schedules; a rank with the fewest finished rounds can proceed MPI is assumed to keep the order of messages between two ranks and to match sends with receives"
  },
  {
   "property": "C124",
   "status": "partial",
   "theorems": [
    "Verif.C124_reduce_partial",
    "Verif.C124_reduce_in_place",
    "Verif.C124_gather_partial",
    "Verif.C124_gather_copies",
    "Verif.C124_gather_iff",
    "Verif.C124_topology",
    "Verif.C124_requests",
    "Verif.C124_findGloballyBest",
    "Verif.C124_violated_gather_double",
    "Verif.C124_violated_gather_bytes",
    "Verif.C124_violated_gather_nothing",
    "Verif.C124_violated_gatherConfigurations",
    "Verif.C124_violated_minloc",
    "Verif.C124_violated_self_message",
    "Verif.C124_violated_cart_get"
   ],
   "note": "lists; all types by cases gathering is right exactly for four byte types (`C124_gather_iff`, `C124_violated_gather_double`, `_gather_bytes`, `_gather_nothing`, `_gatherConfigurations`); `C124_violated_minloc`, `_self_message`, `_cart_get`"
  },
  {
   "property": "C125",
   "status": "partial",
   "theorems": [
    "Verif.C125_keeps_queue",
    "Verif.C125_full_search",
    "Verif.C125_violated_no_effect",
    "Verif.C125_returns_partial",
    "Verif.C125_violated_diverges",
    "Verif.C125_violated_container",
    "Verif.C125_violated_csf",
    "Verif.C125_csf",
    "Verif.C125_violated_no_session",
    "Verif.C125_violated_phase"
   ],
   "note": "refinement of the full search; induction over operations the strategy never changes the queue (`C125_violated_no_effect`), loops for ever if the server converged outside of the queue (`C125_violated_diverges`; `C125_returns_partial` says when it returns), `C125_violated_container`, `_csf`, `_no_session`, `_phase`"
  },
  {
   "property": "C126",
   "status": "partial",
   "theorems": [
    "Verif.C126_linearizable",
    "Verif.C126_program_order",
    "Verif.C126_no_deadlock_partial",
    "Verif.C126_terminates",
    "Verif.C126_violated_rethrow_outside",
    "Verif.C126_violated_reentrant_abort",
    "Verif.C126_violated_foreign"
   ],
   "note": "invariants; linearisation points at the release of the lock `C126_violated_rethrow_outside`, `_reentrant_abort` (self-deadlocks), `_foreign` (exceptions of other types pass through)"
  },
  {
   "property": "C127",
   "status": "proved",
   "theorems": [
    "Verif.C127_safeAdd",
    "Verif.C127_safeSub",
    "Verif.C127_safeMul",
    "Verif.C127_pow",
    "Verif.C127_sigmoid",
    "Verif.C127_isNearRel",
    "Verif.C127_roundFixed",
    "Verif.C127_roundFloating",
    "Verif.C127_timer_total",
    "Verif.C127_timer_accepts",
    "Verif.C127_timer_reset",
    "Verif.C127_allocate"
   ],
   "note": "cases, `linarith` on floors, induction over calls floating point overloads and `normalCDF` not modelled (`normalPDF`, `normalCDF` are in C117); the exception handler is taken to throw"
  },
  {
   "property": "C128",
   "status": "partial",
   "theorems": [
    "Verif.C128_infer_covers",
    "Verif.C128_infer_exact",
    "Verif.C128_violated_infer",
    "Verif.C128_init_partial",
    "Verif.C128_violated_bayesian",
    "Verif.C128_violated_harmony",
    "Verif.C128_violated_harmony_diverges",
    "Verif.C128_violated_blind",
    "Verif.C128_violated_blind_cluster",
    "Verif.C128_violated_fallback",
    "Verif.C128_fallback_pairwise",
    "Verif.C128_violated_fallback_triwise"
   ],
   "note": "on top of the search space of C102 and of the strategies of C114, C121, C125 `C128_init_partial` is for strategies that need no interaction type; for the others `C128_violated_bayesian`, `_harmony`, `_harmony_diverges`, `_blind`, `_blind_cluster`, `_fallback`, `_fallback_triwise`, `_infer`; files with rules are not read"
  },
  {
   "property": "C129",
   "status": "partial",
   "theorems": [
    "Verif.C129_sample",
    "Verif.C129_total",
    "Verif.C129_descriptors",
    "Verif.C129_packages",
    "Verif.C129_iteration_partial",
    "Verif.C129_lost",
    "Verif.C129_violated_disabled",
    "Verif.C129_violated_no_support",
    "Verif.C129_violated_no_psys",
    "Verif.C129_violated_stale",
    "Verif.C129_violated_packages",
    "Verif.C129_violated_twice",
    "Verif.C129_files_partial",
    "Verif.C129_violated_files"
   ],
   "note": "specifications of the loops by induction; invariant of descriptors over histories; running maxima for packages `C129_iteration_partial` needs all scales to be set; `C129_violated_disabled`, `_no_support`, `_no_psys`, `_stale`, `_packages`, `_twice`, `_files`; short reads and overflow of `long` not modelled"
  },
  {
   "property": "C130",
   "status": "partial",
   "theorems": [
    "Verif.C130_flops",
    "Verif.C130_hit_rate",
    "Verif.C130_schedule",
    "Verif.C130_same_kernel",
    "Verif.C130_executed_partial",
    "Verif.C130_violated_owned_halo",
    "Verif.C130_violated_no_pairs"
   ],
   "note": "each kernel adds the sum over the pairs it looks at (induction over the loops and blocks); sums over threads are sums over calls neighbour lists without the particle itself; `C130_executed_partial`: operations for globals of particles that are not owned are counted, not executed (`C130_violated_owned_halo`); `C130_violated_no_pairs`; no overflow of `size_t`"
  },
  {
   "property": "C131",
   "status": "partial",
   "theorems": [
    "Verif.C131_records",
    "Verif.C131_observe",
    "Verif.C131_new",
    "Verif.C131_push",
    "Verif.C131_cell",
    "Verif.C131_load_partial",
    "Verif.C131_extract",
    "Verif.C131_round_trip_partial",
    "Verif.C131_functors",
    "Verif.C131_violated_int"
   ],
   "note": "refinement to a list of records by induction over histories; blocks of the arrays for the orders of threads containers with 2^31 particles throw (`C131_violated_int`, hence `_partial`); all attributes have one type of values; a structure is not appended to itself"
  },
  {
   "property": "C132",
   "status": "partial",
   "theorems": [
    "Verif.C132_configuration",
    "Verif.C132_results",
    "Verif.C132_predictions",
    "Verif.C132_flops",
    "Verif.C132_iterations_partial",
    "Verif.C132_violated_energy",
    "Verif.C132_violated_functor",
    "Verif.C132_samples_partial",
    "Verif.C132_violated_samples",
    "Verif.C132_violated_one_sample",
    "Verif.C132_live_info"
   ],
   "note": "what a reader gets by splitting at commas equals the list of columns or values; regular expressions by induction over the text `_partial`: one list of samples empty (`C132_violated_samples`, `C132_violated_one_sample`), energy measurements failing later (`C132_violated_energy`), commas in functor names (`C132_violated_functor`)"
  },
  {
   "property": "C133",
   "status": "partial",
   "theorems": [
    "Verif.C133_override",
    "Verif.C133_exit",
    "Verif.C133_numbers",
    "Verif.C133_numbers_accepted",
    "Verif.C133_reals",
    "Verif.C133_sets",
    "Verif.C133_choices",
    "Verif.C133_texts_partial",
    "Verif.C133_files",
    "Verif.C133_flags",
    "Verif.C133_log_level",
    "Verif.C133_vectors",
    "Verif.C133_boundary",
    "Verif.C133_one",
    "Verif.C133_lists",
    "Verif.C133_booleans",
    "Verif.C133_functors",
    "Verif.C133_names",
    "Verif.C133_interactions",
    "Verif.C133_objects",
    "Verif.C133_input_file",
    "Verif.C133_input_names",
    "Verif.C133_violated_loess",
    "Verif.C133_violated_texts",
    "Verif.C133_violated_numbers",
    "Verif.C133_violated_interval",
    "Verif.C133_violated_blank"
   ],
   "note": "induction over the command line; exact names by C46 `_partial`: texts with upper case letters (`C133_violated_texts`); `getopt_long`, `stod`, the YAML parser are arbitrary"
  },
  {
   "property": "C134",
   "status": "partial",
   "theorems": [
    "Verif.C134_options",
    "Verif.C134_accepted",
    "Verif.C134_unknown",
    "Verif.C134_numbers_partial",
    "Verif.C134_numbers_accepted",
    "Verif.C134_violated_negative",
    "Verif.C134_counts",
    "Verif.C134_reals",
    "Verif.C134_bools",
    "Verif.C134_vectors",
    "Verif.C134_boundaries",
    "Verif.C134_log_level",
    "Verif.C134_texts_partial",
    "Verif.C134_violated_suffix",
    "Verif.C134_sets",
    "Verif.C134_choices",
    "Verif.C134_one",
    "Verif.C134_functors",
    "Verif.C134_cell_size",
    "Verif.C134_names",
    "Verif.C134_strategies_partial",
    "Verif.C134_violated_strategies",
    "Verif.C134_violated_blank",
    "Verif.C134_interactions",
    "Verif.C134_sites_partial",
    "Verif.C134_violated_mass",
    "Verif.C134_violated_site_ids",
    "Verif.C134_objects",
    "Verif.C134_thermostat"
   ],
   "note": "induction over the keys, lookup in finite tables, exact names by C46 `_partial`: negative numbers (`C134_violated_negative`), empty texts (`C134_violated_suffix`), strategies without brackets (`C134_violated_strategies`), sites without mass (`C134_violated_mass`); yaml-cpp's conversions are arbitrary, single-site build"
  },
  {
   "property": "C135",
   "status": "partial",
   "theorems": [
    "Verif.C135_partial",
    "Verif.C135_violated_interactions",
    "Verif.C135_violated_suffix",
    "Verif.C135_violated_digits",
    "Verif.C135_violated_unprinted",
    "Verif.C135_printed"
   ],
   "note": "line by line: each printed line is read to the value it was printed from (names by C46) `_partial`: only without the two blocks of the interactions (`C135_violated_interactions`), with few digits, non-empty suffix, finite cell sizes, single-site build"
  },
  {
   "property": "C136",
   "status": "partial",
   "theorems": [
    "Verif.C136_partial",
    "Verif.C136_iterations",
    "Verif.C136_endless",
    "Verif.C136_violated_intervals",
    "Verif.C136_violated_pause",
    "Verif.C136_violated_pause_file"
   ],
   "note": "invariant of the loop: after `n` passes the state is that of the trajectory, counters and written files as specified `_partial`: without pausing or without tuning: while paused, the file of the iteration is overwritten with the middle of the step (`C136_violated_pause`); write frequency and load balancing interval 0, which the parsers accept, are remainders by zero (`C136_violated_intervals`)"
  },
  {
   "property": "C137",
   "status": "partial",
   "theorems": [
    "Verif.C137_text",
    "Verif.C137_partial",
    "Verif.C137_narrow",
    "Verif.C137_violated_width",
    "Verif.C137_violated_columns_13",
    "Verif.C137_violated_columns",
    "Verif.C137_width"
   ],
   "note": "arithmetic of the conversions, floor of quotients `_partial`: for one width, text plus three columns, and for negative `COLUMNS`, an exception ends the simulation (`C137_violated_width`, `C137_violated_columns`); percentages above 999999 are not modelled"
  },
  {
   "property": "C138",
   "status": "partial",
   "theorems": [
    "Verif.C138_squared",
    "Verif.C138_neighbors",
    "Verif.C138_pairwise",
    "Verif.C138_layers",
    "Verif.C138_total",
    "Verif.C138_balanced_partial",
    "Verif.C138_violated_int"
   ],
   "note": "the visited indices are a permutation of the cells of the region; partition by layers; invariant of the greedy loop `_partial`: only for loads below 2^31, because the load before a slice is stored in an `int` (`C138_violated_int`); sums below 2^64 assumed"
  },
  {
   "property": "C139",
   "status": "partial",
   "theorems": [
    "Verif.C139_distinct",
    "Verif.C139_pieces",
    "Verif.C139_sorted_partial",
    "Verif.C139_length",
    "Verif.C139_violated_sorted"
   ],
   "note": "numbers are read back from the names; digits of equal length are ordered like their values `_partial`: order only for simulations with a given number of iterations; a simulation limited by tuning phases has iterations 0 in its configuration, hence no leading zeros (`C139_violated_sorted`)"
  },
  {
   "property": "C140",
   "status": "partial",
   "theorems": [
    "Verif.C140_float_partial",
    "Verif.C140_float_special",
    "Verif.C140_violated_small",
    "Verif.C140_integer",
    "Verif.C140_negative"
   ],
   "note": "the distance to the root is halved in each step and the last step bounds it; invariant `x < (x0+1)^2` and well-founded induction `_partial`: arguments above the tolerance; a positive argument up to the tolerance is returned itself (`C140_violated_small`); rounding errors and infinite arguments are left out"
  },
  {
   "property": "C141",
   "status": "partial",
   "theorems": [
    "Verif.C141_partial",
    "Verif.C141_violated_no_halo",
    "Verif.C141_reserve",
    "Verif.C141_violated_flat"
   ],
   "note": "algebra, floors `_partial`: the particles of the box are counted as well, because the volume of the grown box is taken for that of the halo (`C141_violated_no_halo`); boxes without volume: `C141_violated_flat`"
  },
  {
   "property": "C142",
   "status": "partial",
   "theorems": [
    "Verif.C142_partial",
    "Verif.C142_violated_digit",
    "Verif.C142_missing",
    "Verif.C142_violated_name"
   ],
   "note": "the line of the kernel has eight columns for the number; digits are read back `_partial`: from 10^7 kB on; below, the last digit is lost (`C142_violated_digit`); program names with the key: `C142_violated_name`"
  },
  {
   "property": "C143",
   "status": "partial",
   "theorems": [
    "Verif.C143_tree",
    "Verif.C143_domain_partial",
    "Verif.C143_violated_voxel",
    "Verif.C143_particles_partial",
    "Verif.C143_violated_comma",
    "Verif.C143_leaves"
   ],
   "note": "positions in concatenated lists; separators by induction; counting `_partial`: the list of particles is well-formed exactly if the last leaf has particles or none has (`C143_violated_comma`); the points of a domain are in the wrong order for voxels (`C143_violated_voxel`); printing of numbers is left out"
  },
  {
   "property": "C144",
   "status": "partial",
   "theorems": [
    "Verif.C144_tuning_iterations",
    "Verif.C144_tunes_first",
    "Verif.C144_length",
    "Verif.C144_bound_partial",
    "Verif.C144_full_search_partial",
    "Verif.C144_one_phase",
    "Verif.C144_precise",
    "Verif.C144_violated_iterations",
    "Verif.C144_violated_exact"
   ],
   "note": "a tuner that stops tuning stays so until the end of the interval, hence `TunesFirst`; counting the ends of phases by induction; C136 for the loop `_partial`: too large by the tuning iterations of all phases but one (`C144_violated_exact`); `tuning-phases` does not override `iterations` as documented (`C144_violated_iterations`); phases longer than the interval and other strategies are missing"
  }
 ]
}