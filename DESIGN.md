# Formal model of AutoPas in Lean 4: design

## What this directory is

* `properties.jsonl`: the semantic properties, one per line.
* `lean/Verif/Model/*.lean`: the model, one module per subsystem. Each definition cites the file and
  lines of `/repo` it models and says where it simplifies.
* `lean/Verif/Spec/*.lean`: small specifications, written without using the model's helpers.
* `lean/Verif/Lemmas/*.lean`: auxiliary lemmas.
* `lean/Verif/Props/*.lean`: the property theorems (named `Cnn_...`), each with an `example` showing that
  its hypotheses are satisfiable by a concrete non-trivial case.
* `MANIFEST.json`: property -> theorems and status.  `seeded/LOG.jsonl`: mutation experiments.

## Trusted base

* Lean 4.33.0's kernel. Mathlib's definitions where imported (ordered fields, `Finset`, `List` lemmas).
* Axioms: every theorem depends on at most `propext`, `Classical.choice`, `Quot.sound`. No axiom is
  added, no `sorry`, no `native_decide`, no `bv_decide`.
* The reading of the C++ code: the model is written by hand from the source text; nothing was executed.
* Modelling conventions (below).

## Modelling conventions

* `size_t`/`int`/`long` arithmetic is modelled by `Nat`/`Int` unless the property is about wrap-around. Where the code
  subtracts unsigned values the model states the guard, or models the wrap with modular arithmetic, and says so.
* `double` is modelled by an exact linearly ordered field (usually `ℚ`, or any field `K`), except in
  the places where rounding is the point (C02): there the rounded intermediate result is an
  arbitrary value constrained only by what the code checks afterwards.
* Undefined behaviour (out-of-range access, `back()` of an empty vector, dereferencing end) is a distinct outcome in the model
  (`none`/`Except.error .ub`/an explicit constructor), never silently totalised.
* Threads: a parallel loop is modelled by the set of its iterations (race freedom = disjoint footprints for any two
  iterations that may run concurrently) or by an explicit interleaving transition system (sliced locks).
* Exceptions thrown through `ExceptionHandler` are an error outcome (default behaviour: throw).

## Not modelled

SIMD/AVX/SVE/Kokkos kernels, the memory model below sequential consistency of critical sections, actual MPI transport,
logging, timers' real values, file IO, Eigen-based Bayesian/Gaussian process numerics, YAML parsing.

## Per-property plan

Where the code violates a property, the negation is proved with a concrete witness (`Cnn_violated_...`) and the part that does
hold has a theorem with suffix `_partial`. "Assumes" lists hypotheses of the theorems that a user of AutoPas has to guarantee.

| id | modelled | proof | assumes / remarks |
|----|----------|-------|-------------------|
| C01 | `threeToOneD`, `oneToThreeD` over `Nat` | div/mod arithmetic, both round trips | grid dimensions positive |
| C02 | `get3DIndexOfPosition` with rounding as an arbitrary function constrained only by `Spec.Rounding` | case analysis on the clamping branches | |
| C03 | the loops of `clearHaloCells` as the list of cleared indices | membership characterisation by induction on loops | at least one owned cell per axis |
| C04 | cell boundaries from `rebuild` over ℚ | unique floor | exact arithmetic |
| C05 | `rebuild` (cellsPerInteractionLength, cellLength), overlap | ceil/floor inequalities | box at least as long as the interaction length: `C05_small_box_counterexample` shows that this is needed |
| C06 | `colorTraversal` as a list (per colour) of visited cells | arithmetic: unique (colour, quotient) | stride positive |
| C07, C08 | c08 offsets as generated by the nested loops; base-cell range; footprint | count of (base, offset pair) producing a given cell pair = 1; residues | |
| C09, C10 | c18 offsets incl. the table of special cases | as C07/C08 | |
| C11 | c01 offsets | as C07 | pairwise version |
| C12, C13 | 32-pack / 6-pack loops | modular arithmetic (`omega`), permutation of the c08 calls | overlap 1, which the code requires |
| C14 | transition system: per slice a list of lock/process/unlock actions, any interleaving | inductive invariant; well-founded progress argument; footprints of layers | sequentially consistent locks |
| C15, C16 | thickness computations incl. unsigned wrap-around and the `int` truncation of the load-balanced variant | induction | |
| C17, C19 | `CellFunctor`/`CellFunctor3B` AoS loops as lists of functor calls | permutation / count lemmas | AoS only: for SoA the whole cell is handed to the functor; particles of the cells distinct |
| C18 | sorted views with projections over ℚ (without normalisation, scaled comparison) | Cauchy-Schwarz | `NotBehind`: cell 2 lies in sorting direction. `C18_wrong_direction_loses_pairs` shows the need, `C18_traversals_pass_cell_direction` that c08/c18/c01 provide it |
| C20, C21 | remainder loops as lists of functor calls | counting | region search is half open: pairs at exactly the cutoff are missed (`C20_pair_at_exactly_cutoff_is_missed`) |
| C22 | `VerletListGeneratorFunctor::AoSFunctor`; list traversal | triangle inequality in ℚ without square roots | movement ≤ half the skin per time step; `<` is strict at list construction |
| C23, C24 | LogicHandler/AutoTuner/ContainerSelector control state machine over arbitrary call histories | invariant | C24 **violated**: lists of a new container are used before they are built, at phase start, with two interaction types and after `forceRetune` |
| C25, C26, C27 | LogicHandler state (container cells, buffers, counters) on LinkedCells, with the region iterators of the leaving-particle collector | multiset invariant by induction on histories | user contract `ActionOk` in Spec/ParticleHistory.lean (thread numbers in range, movement at most half the skin per step, additions where documented); collector loops of one thread are atomic |
| C28 | `balanceVectors` | induction; two passes always suffice | fewer than 2^31 elements (`int numElem`) |
| C29 | `resizeBox` + container regeneration | as C25 | **violated**: particles in insertion buffers are not handed back. `C29_history_continues`: they are handed back by the next update |
| C30, C31 | ContainerIterator + `LinkedCells::getParticle` | induction on cells | **violated** for behaviour `dummy` without owned/halo |
| C32 | region iterator incl. clamping and cell lookup | as C30 | **violated** for halos farther than the interaction length, and when a particle used its whole skin early |
| C33 | deletion through the iterator | invariants of the loop | **violated**: deleting the last particle restarts the iteration when no buffer is filled |
| C34 | swap-delete in LinkedCells, marking in Verlet containers, DirectSum | case analysis | **violated** for DirectSum (return value, wrong particle removed) and for particles that left their cell; `C34_directSum_partial`: owned particles, and halo particles near one dimension only |
| C35 | bit flags | bitwise reasoning for all naturals | `forEach`/`reduce` throw for combined flags; iterators do not |
| C36, C37, C38 | AutoTuner state machine with full search, EvidenceCollection | induction over phases | **violated** in corners: sampling longer than the interval, two evidences per phase, last configuration not applicable, empty queue |
| C39 | SlowConfigFilter | | one measurement per phase and configuration (`GoodEvidence`); otherwise **violated** |
| C40 | round robin in `reset` | div/mod | **violated** with more ranks than configurations |
| C41 | byte level encoder | round trip | option values below 256 |
| C42 | rule VM and compiler | compiler correctness by induction on syntax | parsing (ANTLR) not modelled; `with same` of configuration orders is not part of the compiled code |
| C43 | `==` with epsilon, `<`, hash | | **violated** for factors closer than 1e-12 |
| C44 | one-hot encoding | round trip | decoding accepts entries other than 0/1: **violated** |
| C45 | `calculateRelevantCsfs` | ceil/floor | **violated** for the smallest cell count |
| C46, C49 | Needleman-Wunsch, tokenizer, `operator>>` | optimality via the alignment recursion | C49 **violated** at the end of a stream (infinite loop) |
| C47 | runtime estimate | algebra | **violated** without a rebuild sample |
| C48 | `updateContainer` | from the collector model of C27 | **violated** for halos farther than the interaction length |
| C50 | `MPI_Allreduce(MINLOC)` + broadcast | induction | MPI primitives as documented |
| C51 | `CellFunctor` (both layouts), the cell block, all pairwise linked-cells traversals, ownership flags of cells | contribution counts per cell functor call, summed over the calls of the traversal with C07-C15 | exact arithmetic; particles binned by a home position at most half the skin away; SoA functors do what they document |
| C52 | the history machine of C25 with the traversals of C51 and the remainder traversal of C04 | invariant: every stored particle is at most (steps since rebuild) half skin-per-step from the position it was sorted by; composition of C51 and the remainder; sum over a permutation | linked cells; exact arithmetic; functor zero from the cutoff on and for dummies; user moves at most half the skin per step and calls updateContainer afterwards |
| C53 | `VerletLists`: construction (AoS/SoA generator) with lc_c08, index lists, SoA loading, list iteration, remainder | C51 at build time with cutoff := interaction length; triangle inequality; SoA iteration is a permutation of AoS iteration | exact arithmetic; storage not reordered while lists are kept; AoS construction needs that dummies are not re-activated |
| C54 | `DSSequentialTraversal` (pair functors) with `CellFunctor`, cells of DirectSum, remainder | the lemmas of C51 per cell functor call; positions behind their halo cell by at most the skin | fails in AoS if the skin exceeds the cutoff (`C54_violated_large_skin`: the sorting cutoff is the cutoff, not the interaction length); `_partial` for skin ≤ cutoff or SoA |
| C55 | `DirectSum::updateContainer(false)`, `updateHaloParticle`, `addHaloParticleImpl` | loop invariant of the swap-delete loop; case analysis over the faces | exact arithmetic |
| C56 | `VLCAllCellsNeighborList` with its generator functor (both layouts), base cells of the vlc traversals, `processCellListsImpl`, SoA index lists | the calls made from the lists are a permutation of the calls of the building lc_c18 traversal filtered by distance and visited cells; then C51 and the triangle inequality | vlc_c08 is C58; exact arithmetic |
| C57 | packages of base cells per phase; lock system of C14 with doubled overlap | footprint of the lists of a cell: with Newton 3 the neighbours lie at most an overlap away and not below in z; then C06/C14/slice thickness | functor calls update their first particle, with Newton 3 both |
| C58 | `rebuildNeighborListsC08` with `buildC08BaseStep` (deduplicated, sorted), the insertion into the lists of the base cell, the clean-up, and `vlc_c08` on them. | The entries of a base cell's lists are a permutation of the neighbours among the 14 cell pairs of its block; the cell pairs of all base cells form a traversal in the sense of C51 (each pair of adjacent cells once), so C51's counting applies; races as in C06/C57. | As C56. |
| C59 | `VLCCellPairNeighborList` (slot count, registration of neighbouring cells, generator functor, SoA lists), `processCellLists` for pairwise lists, and `VLCCellPairC08CellHandler::processCellListsC08`. | Invariant over all calls of the generator functor: every cell has at most as many registered neighbours as slots, because they lie in the 27- or 14-cell stencil; the entries of all slots of a cell are those of VerletListsCells (C56), so C56/C57 transfer; for `vlp_c08` the lists visited for a pair of cells are the entries between these cells, and lc_c08 visits each pair of adjacent cells once (C51). | Cell size factor at least 1 (what the Verlet containers enforce): with smaller cells the slot count computed by the code could be one short. |
| C60 | `VerletNeighborListAsBuild` (generator functor, one hash map per colour and thread, SoA lists) and `VVLAsBuildTraversal`; the distribution of base cells over threads and the iteration order of the hash maps are arbitrary. | Entries of a thread's map are a permutation of the near calls of its base cells; all together are those of lc_c08 (C51); eight colours because the overlap is one; races from C08, since different threads have different base cells of a colour. | Cell size factor at least 1: with smaller cells there would be more than the eight colours the arrays have room for. |
| C61 | `getNumberOfNeighborPairs`. | **Violated**: it counts hash map entries (particles with neighbours), not pairs; `C61_number_of_pairs_wrong` has three particles with three pairs and the answer two. Proved: never too large, and right exactly if every list has one neighbour. | Partial because of the defect. |
| C62 | `NeighborListsBuffer` (lists, last valid index, growth). | **Violated**: `C62_violated`, the eleventh request to a new buffer returns an index out of range, because the check for a full buffer is made before the index is incremented; `C62_always_exhausted` for every state. Proved: the exact number of requests that work, and that VerletClusterLists stays below it. | Partial because of the defect. |
| C63 | `estimateOptimalGridSideLength`, `resize`, tower lookup, tower boxes and `rebuildTowersAndClusters`. | A particle in the box of a tower has that tower as its index; counting over kept, surplus and out-of-bounds particles. | `cbrt` is any function that is positive on positive numbers. |
| C64 | `getParticleImpl`, `advanceIteratorIndices` of VerletClusterLists as an instance of the iterator model of C30–C33. | **Violated** if the number of towers per interaction length differs in x and y: an owned particle is not visited (`C64_violated_owned`), a halo particle in the region is not visited (`C64_violated_region`). Proved if they agree. | Partial because of the defect; dummies and far particles as in C31, C32. |
| C65 | Cluster lists (`VCL.neighbours`), `VCLClusterFunctor`, all five traversals, the remainder traversal of the buffers. | Particles within the cutoff are in towers and boxes that pass the tests of the rebuilder; each unordered pair of clusters is on exactly one list with Newton 3 and on two without; every cluster is visited once. **Violated** if the number of towers per interaction length differs in x and y: `C65_violated_uneven`, two owned particles within the cutoff never interact, with every traversal. Nothing is received twice on any grid. | Partial because of the defect. |
| C66 | `getTraversalSelectorInfo` at a later number of particles. | If the estimate still gives the same number of towers, C65 holds. **Violated** otherwise: `C66_violated`, nine particles, one is deleted, and the sliced traversals skip towers with owned particles. | Partial because of the defect. |
| C67 | The packages of all traversals, the lock protocol of C14 for the sliced ones; particles updated by a package are those of its clusters and, with Newton 3, of their lists. | Stride 3×2 of c06 against the forward direction of lists; distance of slices against the doubled overlap. **Violated** between rebuilds: `C67_violated`, after a deletion two slices of `vcl_sliced_c02` that run at the same time update the same particle. | Partial because of the defect. |
| C68 | `fillClusterRanges` as a fold over owned clusters, `traverseParticles` of c01 balanced as a loop over towers. | Invariant: the closed ranges are exactly the clusters before the current one. | The list lengths are arbitrary. |
| C69 | `OTState`: owned and halo tree with their particle counts; insertion with splitting, `updateContainer`, deletions. | Invariant over histories: the leaves hold a permutation of the specification's lists, and particles are in the box of their leaf while nothing moved. **Violated**: `C69_violated_insert_after_move` (an insertion that splits a leaf drops a particle that moved out of the box since), `C69_violated_far_halo` (a halo particle farther away than the interaction length is dropped but counted). | Partial because of the defects. |
| C70 | Neighbour search through the direction tables, `findPathsBetween` recursion, leaves in range for the other tree, `ot_c18` and `ot_c01`. | Direction tables by kernel computation over all of the finite tables; for the tree: the leaves touching a leaf are exactly those found through the 26 directions, each once, by induction over paths. | Exact arithmetic. |
| C71 | `deleteAt` (iterator) and `deleteRef` (reference). | Erases exactly the particle if it is in the leaf its position selects. **Violated**: `C71_violated_size` (deletion through an iterator leaves `size()` unchanged), `C71_violated_empty_leaf` (undefined behaviour: `pop_back` on an empty leaf), `C71_violated_misplaced` (another particle is moved into a wrong leaf, and a close pair no longer interacts). | Partial because of the defects. |
| C72 | `OTIter`: the decimal cell index, climbing and descending, the relevance test, additional vectors, assignment and deletion through the iterator. | Simulation: the iterator over the trees and the iterator over the list of all leaves (of which C31–C33 know everything) stay at corresponding places, for every loop body. **Violated**: `C72_violated_empty_region` (an empty region makes the iterator read behind the eight children of a node), `C72_violated_dummies` (dummies among the owned particles are not visited by a dummy-only iterator). | Partial because of the defects; trees deeper than 18 (boxes wider than 500000 interaction lengths), where the decimal index overflows `size_t`, are excluded. |
| C73 | `ljAoSCall`, `ljSoASingle`, `ljSoAPair`, `ljSoAVerlet` with loading and extracting of SoAs; doubles are exact numbers or `nonFinite` (`Num`). | Every kernel is shown to add the sum of directed interactions (`ljEvent`) of its documented AoS calls, by induction over its loops. **Violated**: `C73_violated_on_deleted_particle` (the SoA kernels turn a deleted particle on the position of an existing one into NaN forces). | Partial because of the defect: the theorems about SoA kernels ask for different positions. No rounding or overflow. |
| C74 | `ljCompute`: kernel calls of container and remainder traversal, each on some thread, thread sums, `endTraversal`. | C52 (completeness) + C73 (kernels), sums over permutations. | SoA buffers are loaded around each kernel call; linked cells only. |
| C75 | `ljAoS` on the reals. | Derivatives of `ljU` with Mathlib's calculus, C73 for the kernel. | Interior of the cutoff sphere; pair energies. |
| C76 | `PPL.run`: all registering functions, the calculation and the getters; `sqrt`, `cbrt` as parameters with their laws. | Invariant between the vectors and a functional registry, by induction over the history; index arithmetic of the flat tables. **Violated**: `C76_violated_molecule_without_lennard_jones` (reads `_sigmas` out of bounds), `C76_violated_stale_coefficients` (lookups between a new site type and the next calculation), `C76_violated_documentation` (molecule ids cannot be overwritten, no exception without types). | Partial because of the defects. |
| C77 | `atAoS`, `atKernel` on the reals, `ATFlops` for the operation counters. | Derivative of the energy written with square roots, polynomial identity for the direction terms (`at_identity`). Beside it: `C77_violated_virial_depends_on_origin` (f·r over owned particles only: with halo particles it depends on the origin of the coordinates), `C77_violated_operation_count` (documented as counted since initTraversal, never reset). | Exact real arithmetic. |
| C78 | `lcC01Triwise`, `dsCalls3`, `LHState.interactions3`: the triwise branches of LCC01Traversal and DSSequentialTraversal with the cell functor for triples and the remainder traversal for triples. | A call with base cell A, cells B, C reaches the triple exactly if the three home cells are A, B, C (`C01Item.hits`); the offset pairs contain every pair of neighbour cells once (`c01_triwise_once`); induction over histories from C52; `CompleteCalls3.accumulated` turns counts into sums. | Direct sum: skin ≤ cutoff (`_partial`, same cause as C54). AoS only: the code has no SoA three-body functors. |
| C79 | `atCompute`: the calls of C78 in any order on any threads, with the kernel of C77 on the reals. | Every call is a sum of directed events (`atAoSCall_eq`), events add up (`atJobs_total`), complete calls give the sum over pairs (C78), pairs per particle give triples (`triple_sum`), gradient of a sum. | Linked cells; exact real arithmetic; no two particles on the same spot or exactly at the cutoff. The virial is not claimed (C77_violated_virial_depends_on_origin). |
| C80 | `lcC01Combined`: ring of buffers per thread (`c01RingInit`, `c01RingReduce`, `c01RingExtend`, `c01RingShift`), calls per base cell, any rows per thread. | The slices of the offset table are prefixes of each other towards the middle (`c01Slices_left/right`), so the ring invariant `RingOk` survives a shift; calls per base cell are a permutation of the calls of `lc_c01` up to halo cells; bounded below and above by C51. | A buffer is the list of its particles. Halo cells that are base cells may receive contributions in the middle slice (the code calls the functor directly there); they are received at most once. |
| C81 | `lcC04Combined`: memory of cell buffers and combined buffers (`C04State`), `load`, `store`, `entry`, `baseCell`, `row`; `c04Setup` computes the offset tables. | Invariant `Holding`: the slots hold exactly the columns at and right of the base cell, each particle with what it has got so far; `row_hold`, `lcC04Combined_hold`; the calls of all rows are a permutation of those of `lc_c08` on open cells (`rows_open`); race freedom by `OnlyOn`. | Overlap 1 (what isApplicable demands). The functor adds `F a b` to the receiver; an SoA is a list of particle-value pairs. |
| C82 | `LRState`: vector with capacity and generation (a reallocation starts a new generation; a pointer of an old one dangles), dirty index, cells of pointers; `add`, `updateDirty`, `updateRebuild`, `updateKeep`, `move`, `delete`, `deleteAll`, `lrFlush`. | Invariant `LRInv`: all pointers are of the current generation, distinct, and cover all non-dummy particles of the vector; the view through the pointers behaves as the cells of LinkedCells, so its lemmas apply; forces by C51. Violations: `deleteAllParticles` clears the cells only, so the particles come back (`C82_violated_delete_all`); adding a particle while the vector is full re-sorts everything and throws if an owned particle is outside the box, which `LogicHandler::updateContainer` provokes by flushing buffers first (`C82_violated_add_throws`). `C82_history_partial` and `C82_forces_partial` exclude both; `C82_throws_or_right_partial` excludes only the former. | Histories shorter than 2^64. Iteration order of the parallel part of updateContainer is an arbitrary permutation. |
| C83 | `generateDecomposition` with its factorisation and merging loops, `convertIdToIndex`/`convertIndexToId`, `RGD.init` (md-flexible, `Model/MDDomain.lean`). | Loop invariants (no divisor below `i` is left); merging keeps the product; mixed radix arithmetic; the cuts of the grid. Violation: nothing may be divided and two or more ranks: front of an empty list (`C83_violated_nothing_to_divide`). | Exact arithmetic; MPI_Cart_create not modelled. |
| C84 | `RGD.haloStep`, `RGD.exchange`, `RGD.toLeft/toRight`, `isNearRel`: all ranks at once, one round per dimension. | One round turns `own ++ halo` into the images along this dimension; three rounds compose to all images within reach (`exchangeHalo_perm`). Partial: y and z periodic or undivided, local boxes two interaction lengths wide in y and z, global box not further than 10^9 interaction lengths from the origin. Violations: `C84_violated_spurious_ghost` (halo particles are forwarded around the box without checking for periodicity), `C84_violated_missing_partner` (`else if`), `C84_violated_far_from_origin` (`isNearRel`). | Messages arrive completely and in order; exact arithmetic. |
| C85 | `RGD.migrate`, `RGD.exchangeMigrating` (`Model/MDMigrate.lean`): all ranks at once, arbitrary rounding of the wrapped coordinate, `nextafter` as a parameter. | Invariant `Moving` over the dimensions still to come; an exchange is a permutation of all messages (`exchange_all`). Partial: in non-periodic dimensions the particles have not left the global box. Violations: `C85_violated_open_boundary` (vanishes with one rank, comes back at the other side with two), `C85_violated_reflecting_wall`. | One send step per dimension (not the ALL library). |
| C86 | `RGD.balanceBox`, `RGD.planeWork`, `balanceAdjacentDomains` (`Model/MDBalance.lean`). | Both sides of a wall compute the same position; half the way to a position `minWidth` away from the outer walls keeps widths at least `minWidth`. Partial: widths at least twice the interaction length before, loads positive. Violations: `C86_violated_narrow`, `C86_violated_no_load`. | Exact arithmetic. |
| C87 | `mdStep`, `mdRun` (`Model/MDRun.lean`): the time loop on all ranks; movement arbitrary (a function of the whole state), loads arbitrary. | Invariant `InPlace`, by C84, C85, C86. Partial as these. | The containers are represented by what the API promises (their own properties: C25, C29, C51 ...); the particles in insertion buffers missed by `resizeBox` (C29) are not represented. |
| C88 | `Integrator.updatePositions`, `Integrator.iteration`, `Integrator.run` (`Model/Verlet.lean`) over any ordered field; the forces are arbitrary functions of the positions. | Induction over the steps from `ForcesUpToDate`; particle loops commute since each body is visited once (`Schedule`). Partial: the forces stored at the start have to be those at the starting positions; the skin per time step has to exceed 2e-6 for the speed check. Violations: `C88_violated_first_step` (generated particles start with force zero), `C88_violated_small_skin`. | Exact arithmetic; single-site molecules; no migration (C85, C87). |
| C89 | `Integrator.pauseIteration`, `Integrator.pauseRun` (`Model/Verlet.lean`); which iterations tune is arbitrary input. | Invariant `PauseInv`: in a pause the bodies are half way through a Verlet step (`HalfWay`). Partial: without reflective walls (`C89_violated_reflecting_wall`). | As C88. |
| C90 | `ThermoTypes.temperatureComponent`, `.apply`, `.temperature` (`Model/Thermostat.lean`): particles on ranks and threads, numbers possibly not finite; the square root is a parameter with the laws `SqrtLaws`. | Sums over ranks and threads are sums over a list of all particles (`Contains`). Partial: temperatures positive; halo particles count. Violations: `C90_violated_at_rest`, `C90_violated_target_zero`, `C90_violated_halo`, `C90_violated_calcTemperature`. | Exact arithmetic; no Brownian motion; single-site molecules. |
| C91 | `Reflection.reflect` (`Model/Reflect.lean`). | A rank that owns a particle within reach of a wall is at the wall, by the tiling of C83. Partial: not for a particle on a wall (`C91_violated_on_the_wall`). | The constant for the sixth root of two is a parameter (`C91_repels` needs its sixth power to be at most two; the double in the code exceeds this by 4e-16). Exact arithmetic; single-site molecules. |
| C92 | `CSelector.select`, `SelectorCfg.generate`, `.copyAll`, `.construct` (`Model/ContainerSelector.lean`) on top of the storages of the containers (C25, C30, C69, C72, C82). | Invariant `StoreInv` of the copy loop per container; `C92_switches_partial` by induction; `C92_during_simulation_partial` connects it to the histories of C25. Partial: owned particles inside the box, halo particles outside and not farther than the interaction length, at the time of a switch. Violations: `C92_violated_moved` (exception), `C92_violated_far_halo` (octree loses a particle). | Loops over the old container are taken to come to every particle that is not a dummy (proved for the iterators in C30, C64, C72). Neighbour lists are rebuilt afterwards (C24). |
| C93 | `rotatePosition`, `rotatePositionBackwards`, `rotateVectorOfPositions`, `qMul`, `qMulVec`, `qConjugate`, `qMirror`, `convertQuaternionTo3DVec` (`Model/Quaternion.lean`) over any field; `Spec/Rotation.lean`: proper rotation, mirror image. | Polynomial identities (`linear_combination`). | Rounding. |
| C94 | `RotInt.updateQuaternion` with the fixed point loop, `.updateAngularVelocity`, `.iteration`, `.run`, `.tuningPhase` (`Model/RotationalIntegrator.lean`) over an ordered field with square root; non-termination is `.diverges`. | `C94_rigid` by induction over the steps; `C94_step_ends_partial`: the loop is a contraction on unit quaternions if the molecule turns by less than two radians per step; `C94_angular_momentum_partial`, `C94_free_rotation_partial` for equal moments of inertia. Violations: `C94_violated_hangs` (more than √17 radians per step: the loop never ends), `C94_violated_angular_momentum` (unequal moments of inertia: gyroscopic term missing), `C94_violated_pause` (torques are not reset while paused). | One molecule: the loops treat molecules one by one. Rounding: the loop may also hang because of rounding. |
| C95 | `msAoSCall`, `msSoASingle`, `msSoAPair`, `msSoAVerlet` with site arrays, masks, inner loops and reductions (`Model/LJMultisite.lean`), polymorphic in the numbers, with possibly non-finite results; `Spec/LJMultisite.lean`: sites, textbook force, torque, energy, rigid motions. | Every kernel is the start state plus a sum of events of pairs of molecules (`Lemmas/LJMultisite.lean`, `Lemmas/LJMultisiteSoA.lean`, by induction over the molecules with the flat site index as a list of visits); the events are the textbook sums (`Lemmas/LJMultisiteSums.lean`); `C95_all_molecules` builds on complete lists of calls (C03, C13, C74). Derivatives with Mathlib's `HasDerivAt`. | Without mixing the functor cannot be used (see below) and is not modelled. Rounding; reading the library of site properties. |
| C96 | `Mol.get/set`, `MultiMol.get/set`, tables of attributes, `serializeParticle`, `deserializeParticles`, `sendParticles`, `receiveParticles` on bytes (`Model/Serialization.lean`); members are 64 bit patterns, `memcpy` beyond a buffer is undefined behaviour, the count passed to MPI is an `int`. | Invariant of the byte offset over the attributes, induction over particles and messages; words are recovered from their bytes bit by bit. | Partial: messages of 2^31 bytes or more abort or corrupt (`C96_too_long_aborts`, `C96_too_long_corrupts`). MPI itself is assumed (no overtaking). |
| C97 | The four prediction methods with their overflow checks, stored functions, `calculatePredictions`, `reset`, `addEvidence`, `rejectConfiguration` (`Model/PredictiveTuning.lean`); `double` is `Rat`, conversions outside the range of `long` and divisions by zero are undefined behaviour. | Least squares by the normal equations; divided differences by induction, uniqueness of interpolation; queue by invariants of the loops; retest interval by induction over histories of phases. | Partial: regression only if the mean is not truncated (`C97_regression_wrong`); Newton's polynomial is wrong or undefined when reused (`C97_newton_later_undefined`, `C97_newton_later_wrong`); configurations without measurements are forgotten (`C97_unmeasured_forgotten`). |
| C98 | `W`, `gradW` (SPHKernels.h), `SPHCalcDensityFunctor` with its AoS function and the three SoA functions (generic pair loops over loaded arrays), the self-density of sph-main.cpp, in every kernel call of the linked cells container | The kernel is rewritten as the textbook spline; its derivative and integral (in polar coordinates) by Mathlib's calculus; SoA kernels add the same events as AoS calls (`gKernelCall_eq`), with completeness (C52) they sum up to the spec | reals instead of doubles; linked cells container; sph-main's halo exchange and leap frog loop not modelled |
| C99 | `SPHCalcHydroForceFunctor` (all four functions), `calcPressure`, `calcDt`, `getTimeStepGlobal` | as C98, with accelerations and heats in an additive monoid and signal speeds in the max monoid; conservation by antisymmetry of the summands | partial: only for equal smoothing lengths; otherwise false (`C99_order_matters`, `C99_momentum_violated`) |
| C100 | `LJFunctorAVX`: `SoAKernel` lane by lane with masks, mixing and the early return, the loops of `SoAFunctorSingle`, `SoAFunctorPair` and `SoAFunctorVerlet` with their gather/scatter buffers, horizontal sums; out-of-bounds accesses are `none` | every register block adds the events of its lanes (`avxKernel_eq`), blocks and rest cover all indices (`avxInner_eq`), so each kernel equals the AoS calls it stands for; with completeness (C52) the container-level sums follow | no rounding; ownership compared as integers, the code compares denormal doubles (breaks if denormals are flushed to zero); container level for linked cells |
| C101 | `RuleBasedTuning` (reset, optimizeSuggestions, applyRules, addEvidence, verifyCurrentConfigTime), patterns and orders, on top of the `AutoTuner` model of C37; the orders applicable in a phase (the result of the rule program, C42) are an arbitrary function of the phase | the strategy selects a subset at reset and leaves the queue alone afterwards (`Narrows`), the tuner then behaves as full search on this subset (`narrowed_interval`), induction over phases; induction over the evidence for the reports | **Violations**: a configuration is removed even if nothing available is better (`C101_violated_no_counterpart`), contradictions of configurations matching both sides are missed (`C101_violated_overlap`), times of earlier phases are compared (`C101_violated_stale_times`). Side conditions on the interval as in C37 |
| C102 | `cartesianProduct` with all tables (traversal names and prefixes, restrictions, load estimators), `hasCompatibleValues`, the call in `AutoPas::init`, and on the other side `TraversalSelector` and `isApplicable` of all 33 traversals | finite tables compared by kernel computation over all options (`decide +kernel` over complete enumerations, with the domain geometry universally quantified), membership in the nested loops by structural reasoning for arbitrary sets | **Violation**: for an interval of cell size factors `init` multiplies cutoff and skin (`C102_violated_interval_empty`, `C102_violated_interval_redundant`). Load estimators implemented for linked cells with references and pairwise lists are never offered (`C102_never_balanced`) |
| C103 | All membership functions, fuzzy sets, rules, control systems, both defuzzification methods (loops with divergence), output mappings, patterns from the rule file, `FuzzyTuning::reset` in both modes; `double` = ordered field with an exponential function (instance: real numbers), ANTLR parser not modelled | inequalities over ordered fields, induction over sets, rules and samples; weighted means; the tuner history by the simulation of C101, generalised to reversed queues | **Violations**: cell size factors in patterns are ignored (`C103_violated_cell_size_factor`), prediction 0 outside of the range if no rule fires (`C103_violated_no_rule_fires`), endless loop for a range of one value (`C103_violated_point_range`), nothing selected for negative suitabilities (`C103_violated_negative_suitability`), a trapezoid with a vertical slope is 0 at its edge (`C103_violated_shoulder`). Side conditions of C37 for the histories |
| C104 | `generate`, `getParticlesTotal`, `getBoxMin/Max`, `getParticleSpacing` of the five object classes, the particle generators behind them, `initializeObjects`, `calcSimulationBox`; `double` = real numbers, the random generators are arbitrary streams (uniform values in [0,1)), the loops over `double`s may diverge, `int` products may overflow | closed forms of the loops by induction, lattices by injectivity and inequalities with square roots, the box by monotonicity over the list of objects | Partial: the reported number is computed as `int` and overflows for more than 2³¹ grid particles (`C104_violated_number`). **Violation**: the mean of a gauss object is absolute although documented as relative to the box (`C104_violated_gauss_mean`). Reading the objects from YAML is not modelled |
| C105 | `recordParticleStates`, `createParticlesPvtuFile`, `roundFloating`, `isNearAbs`, file names, and `loadParticlesFromCheckpoint`, `loadParticlesFromRankRecord`, `findWord`, `readPayload`, `getNumPiecesInCheckpoint` with the stream operators of the standard library as functions on character lists; doubles are rationals, NaN or infinite; the disk is a function from paths to contents | text of a number is read back as the closest decimal number (division with remainder, logarithms), the search for words by its state after each part of the file, any order of writing by permutations of distinct paths | Partial: **violations** for ranks without particles (`C105_violated_empty_rank`), session names with a word `Piece…` (`C105_violated_name`), file names without directory (`C105_violated_plain_name`), NaN or infinite values (`C105_violated_nan`), and positions next to borders with more than six digits, borders of a million or negative ones (`C105_violated_border`, `_large_box`, `_tie`). Ownership (only owned particles are written) and VTK files of the domain are not modelled |
| C106 | `loadParticles`, `addParticlesIf`, `LogicHandler::addParticle` (box check, ownership), `initializeObjects` (rank 0 only), `isInsideLocalDomain`, the reductions modulo 2⁶⁴; all ranks at once | filters over a tiling of the box, permutations; composed with the checkpoint (C105) and the simulation loop (C87) | `C106_restart_partial` inherits the restrictions of C105. The order in which threads add particles is not modelled, results are up to order; message passing is taken as reliable and ordered |
| C107 | `calculateWeightsSimple`, `calculateYFitSimple`, `smoothLastPoint` and the use in `addMeasurement`; doubles are rationals, `0/0` and `lround` out of range are undefined | normal equations of weighted least squares by moments, by induction over the points; uniqueness of the fit | **Violations**: a configuration that became faster gets negative evidence and beats one measured to be twice as fast (`C107_violated_outlier`); the result depends on measurements outside of the neighbourhood (`C107_violated_window`); several measurements in one iteration give 0/0 instead of the documented unchanged value (`C107_violated_same_iteration`); `back()` of no points (`C107_violated_no_points`) |
| C108 | `Model/RandomSearch`: both strategies on the tuner of C37; the random number generator is an arbitrary function; undefined behaviour sets a flag | the state of the tuner between tuning intervals as invariant (`IntervalBegin`), one interval by induction over the configurations tested, histories by induction | partial: all configurations applicable and at least as many as are to be tested; **violated** for smaller search spaces (`C108_violated_small_space`: choice from an empty queue). The first configuration of a phase is never random |
| C109 | `Model/TuningLog`: the logger as a strategy, the text of every entry, the stream operators of options, numbers, configurations and live info, and the replayer, character by character; streams that fail for ever are `.diverges`, `back()` of an empty vector is `.ub` | round trip per field, then by induction over infos and lines; replay by induction over queue and entries; `Done` is the invariant behind the first evaluation | partial: proved for the *first* logged phase (`C109_first_phase_partial`), hence for logs of one phase; **violated** for later phases (`C109_violated_later_phases`), strategies that empty the queue (`C109_violated_wipe`), logs cut inside a measurement (`C109_violated_truncated`), cell size factors with more than six decimals (`C109_violated_decimals`). Configurations are compared exactly |
| C110 | `Model/MPIPhase`: the joint state of all ranks of a bucket; a round is one measurement or rejection per rank followed by the collective calls; a rank that waits for one that has left the phase is `.diverges`; `bucketOf` is `distributeRanksInBuckets` | one lemma for a round with the optimum of each rank and the stretched queues, then induction over the remaining rounds with the invariant that every queue has the longest length, or one less and at least two; buckets by induction over the sorted metrics | partial: proved if the number of configurations is a multiple of the number of ranks, at least twice, or less than it, and everything is applicable (`C110_all_measure_partial`); **violated** between (`C110_violated_ranks_wait_for_ever`), for the shared optimum (`C110_violated_optimum_not_shared`) and for rejected configurations (`C110_violated_first_rejected`, `C110_violated_last_rejected`). Measured times depend on rank and configuration only; other strategies and the collective calls of the rest of the program are not modelled |
| C111 | `Model/ForEach`: the loops of FullParticleCell, LinkedCells, DirectSum and Octree (`reduce` only), `numCellsOfInterest` with `size_t` arithmetic, and AutoPas on top of the history model of C25. | LinkedCells exact for all named behaviours, also by regions if no particle moved further than the skin; DirectSum exact without dummies; Octree exact without dummies and (regions) without moves; after any history, the particles visited plus those in the buffers are what AutoPas should hold. Fails for buffered particles, for dummies in DirectSum and Octree, and for regions of an Octree after moves (witnesses). | VerletClusterLists and LinkedCellsReferences are not modelled here; a `reduce` lambda is taken not to change particles. |
| C112 | `Model/LiveInfo`: bin counting with out-of-range indices as undefined behaviour, the statistics with `size_t` subtraction, homogeneity with clamped bins. | Numbers, empty cells, minimum, maximum and estimate equal those of a grid of half-open cells, for every container (`C112_counts`, `C112_grid`); homogeneity is the standard deviation of the bin densities, 0 exactly if all bins hold equally many, and always defined. Average and standard deviations only without halo particles and up to a factor; the code subtracts the halo particles from a number that does not contain them, divides by the number of cells instead of its root, and overflows `int` (witnesses). | `double` exact; `particlesPerBlurredCellStdDev` of an average 0 is no number; copies of parameters are left out. |
| C113 | `Model/ForEachVCL`: the loops over towers (padding included) and vectors of new particles, skipping of towers with `size_t` arithmetic. | Named behaviours without dummies: exact for all contents and grids (`C113_whole_partial`), read-only version (`C113_const`); regions exact for grids with equally many towers per interaction length in x and y when particles moved at most half the skin (`C113_region_partial`). Witnesses for padding and for uneven grids. | The order of visits inside of a region is not fixed; `std::vector` as lists. |
| C114 | `Model/BayesianSearch`: attempts to sample, sorting by the acquisition function, intersection with the queue, limit of evidence; samples, predictions and sorting are parameters. | General theory of phases for all strategies that only reorder and remove (`Lemmas/ShrinkingPhase`, `Spec/Phases`), instantiated (`C114_phase_partial`). Witnesses: smallest value first, no exception. | Only applicable configurations; the Gaussian process is an arbitrary function here (see C115). |
| C115 | `Model/GaussianProcess`: kernel, covariance matrix, score, draws of hyperparameters, normalisation, evidence, predictions, over ℝ. | Powers and exponentials of inner products are positive semidefinite, hence the matrix is positive definite; completing the square; determinant of the Cholesky factor; induction over histories. `C115_evidence`, `C115_prediction`, `C115_no_evidence`, `C115_likelihood`, `C115_variance_gap`; violation for the variance by a limit far away from all observations. | Reals instead of doubles; `addEvidence` without tuning is not modelled; the inverse of Eigen is exact. |
| C116 | `Model/Sampling`: copying of the pool, truncation, shuffling as a parameter, ranges of `size_t`, intervals, Latin hypercube samples. | The sample is a permutation of whole copies and a prefix of the pool; counts follow (`C116_sample`, `C116_interval`, `C116_subset`, `C116_set`, `C116_pick`, `C116_lhs`, `C116_extra`). Witnesses: the extra elements are always the first ones, empty sets. | Probabilities are not modelled; rationals instead of doubles. |
| C117 | `Model/Acquisition`: the five functions, normal density and distribution via the complementary error function, choice of the best sample. | Against the normal distribution of Mathlib: substitution, standardisation, integration by the antiderivative (`C117_probability`, `C117_expected`, `C117_confidence`, `C117_density`, `C117_prefers`, `C117_positive`), applied to all histories of C115 (`C117_process`), choice (`C117_sample_max`). | `std::erfc` is taken to be the integral; reals instead of doubles. |
| C118 | `Model/Distribution`: the iterators over configurations and ranks as indices and counters, both loops of the distribution, the division of an interval. | The iterators stand at the k-th element of the list of all combinations; invariant of the counters gives coverage and counts; `C118_covers_partial` (finite factors), `C118_interval_partial` (ranks a proper multiple of the configurations); violations with witnesses. | Sets are lists without order by value; `double` as rational; the violated parts (containers without traversal, other numbers of ranks for intervals). |
| C119 | `LJFunctorSVE`: all SoA kernels lane by lane with `w` lanes, the predicates, four registers per pass, gather and scatter | the effect of a register is an addition of the interactions of its entries; loops by induction over their steps; the system as in C100. Counterexamples for particles of different types | the functor does not work with mixing of different types: `_partial` assumes equal parameters, `C119_violated_*` show the three errors; reciprocal exact in the kernels, its iteration in `C119_reciprocal` |
| C120 | `GaussianCluster` completely but for logging: dimensions, index, evidence, common hyperparameters, neighbour weights, acquisition loops | an invariant (`GaussCluster.Knows`) over histories; the index is a bijection on vectors in bounds; the mixture as a weighted mean by induction over neighbours | reals instead of doubles; random samples as arbitrary permutations of the grid as in C115; `clear` violates its documentation (`C120_violated_clear`), hence `C120_evidence_partial`; `max_element` of nothing (`C120_violated_no_samples`) |
| C121 | `BayesianClusterSearch` with arbitrary samples and predictions, in the tuner of C104 | the phases of strategies that only shrink the queue (as C114), the first phase separately; histories of rejections by induction | configurations that are all applicable (`C121_phases_partial`); `C121_violated_best_first`, `C121_violated_rejected`, `C121_violated_abort` |
| C122 | `getDecomposition`, `getSendHalo`, `getSendLeaving`, the loops over the 26 directions, `SetupIC`; the serial example | one dimension: the regions sent are disjoint parts of the widened box of the receiver; three dimensions by products; permutations of lists | exact arithmetic; `C122_violated_fast_particle`, `C122_violated_narrow_box` |
| C123 | `MPI_Isend`, `MPI_Probe`/`MPI_Recv`, `MPI_Wait` as steps of ranks with one queue per pair | invariant on queues and logs over all schedules; a rank with the fewest finished rounds can proceed | MPI is assumed to keep the order of messages between two ranks and to match sends with receives |
| C124 | the serial half of `WrapMPI.h` on byte buffers; `memcpy` beyond a buffer is undefined behaviour | lists; all types by cases | gathering is right exactly for four byte types (`C124_gather_iff`, `C124_violated_gather_double`, `_gather_bytes`, `_gather_nothing`, `_gatherConfigurations`); `C124_violated_minloc`, `_self_message`, `_cart_get` |
| C125 | `ActiveHarmony.cpp` as a strategy of the tuner; the server is an arbitrary record of answers; fetching in a loop can diverge | refinement of the full search; induction over operations | the strategy never changes the queue (`C125_violated_no_effect`), loops for ever if the server converged outside of the queue (`C125_violated_diverges`; `C125_returns_partial` says when it returns), `C125_violated_container`, `_csf`, `_no_session`, `_phase` |
| C126 | `ExceptionHandler.h/.cpp` as a transition system of threads with one lock | invariants; linearisation points at the release of the lock | `C126_violated_rethrow_outside`, `_reentrant_abort` (self-deadlocks), `_foreign` (exceptions of other types pass through) |
| C127 | `Math.h/.cpp` (integers; reals instead of floating point), `Timer.cpp`, `AlignedAllocator.h` modulo 2^64 | cases, `linarith` on floors, induction over calls | floating point overloads and `normalCDF` not modelled (`normalPDF`, `normalCDF` are in C117); the exception handler is taken to throw |
| C128 | `init`'s loop over interaction types, `generateTuningStrategy`, `inferOptionDimensions`, the constructors of the Bayesian strategies, `createFallBackConfiguration` | on top of the search space of C102 and of the strategies of C114, C121, C125 | `C128_init_partial` is for strategies that need no interaction type; for the others `C128_violated_bayesian`, `_harmony`, `_harmony_diverges`, `_blind`, `_blind_cluster`, `_fallback`, `_fallback_triwise`, `_infer`; files with rules are not read |
| C129 | `RaplMeter.cpp`, `resetEnergy`, `sampleEnergy` and the energy of an iteration in `LogicHandler`; the operating system is an arbitrary record; values that were never set are undefined behaviour to read | specifications of the loops by induction; invariant of descriptors over histories; running maxima for packages | `C129_iteration_partial` needs all scales to be set; `C129_violated_disabled`, `_no_support`, `_no_psys`, `_stale`, `_packages`, `_twice`, `_files`; short reads and overflow of `long` not modelled |
| C130 | the counters of the four kernels of `LJFunctor` loop by loop, per thread, `initTraversal`, `getNumFLOPs`, `getHitRate`, the fields `FLOPLogger` writes; the AoS kernel operation by operation in a counting monad | each kernel adds the sum over the pairs it looks at (induction over the loops and blocks); sums over threads are sums over calls | neighbour lists without the particle itself; `C130_executed_partial`: operations for globals of particles that are not owned are counted, not executed (`C130_violated_owned_halo`); `C130_violated_no_pairs`; no overflow of `size_t` |
| C131 | `SoA` as one list per attribute with all operations of `SoA.h` (out of range: exception or undefined as in the code), views, `SoALoader`, `SoAExtractor` with offsets, loading of all cells in any order with offsets summed up in an `int`, tables of the attributes of all functors | refinement to a list of records by induction over histories; blocks of the arrays for the orders of threads | containers with 2^31 particles throw (`C131_violated_int`, hence `_partial`); all attributes have one type of values; a structure is not appended to itself |
| C132 | headers and lines of all loggers as texts, with the regular expressions (leftmost match, greedy, backtracking) that cut `toString` of configurations and live info into keys and values | what a reader gets by splitting at commas equals the list of columns or values; regular expressions by induction over the text | `_partial`: one list of samples empty (`C132_violated_samples`, `C132_violated_one_sample`), energy measurements failing later (`C132_violated_energy`), commas in functor names (`C132_violated_functor`) |
| C133 | the loop over the results of `getopt_long` with a table of all 60 options and what their case does (`stoul` with sign, rest and overflow; option names by C46), generation of objects, `inputFilesPresent`, order of file and command line | induction over the command line; exact names by C46 | `_partial`: texts with upper case letters (`C133_violated_texts`); `getopt_long`, `stod`, the YAML parser are arbitrary |
| C134 | files as trees of YAML nodes; a table of all 55 single options and what their branch does, sites, five object generators, thermostat, the loop over keys with its error flag | induction over the keys, lookup in finite tables, exact names by C46 | `_partial`: negative numbers (`C134_violated_negative`), empty texts (`C134_violated_suffix`), strategies without brackets (`C134_violated_strategies`), sites without mass (`C134_violated_mass`); yaml-cpp's conversions are arbitrary, single-site build |
| C135 | `MDFlexConfig::to_string` as the tree of nodes that is read from its text, with all conditions for printing; objects and sites; read with the model of C134 | line by line: each printed line is read to the value it was printed from (names by C46) | `_partial`: only without the two blocks of the interactions (`C135_violated_interactions`), with few digits, non-empty suffix, finite cell sizes, single-site build |
| C136 | `Simulation::run` with `needsMoreIterations`, `updateInteractionForces`, `updateSimulationPauseState`, `updateThermostat`; the parts of a step are arbitrary functions on an opaque state; the calls of the VTK writer | invariant of the loop: after `n` passes the state is that of the trajectory, counters and written files as specified | `_partial`: without pausing or without tuning: while paused, the file of the iteration is overwritten with the middle of the step (`C136_violated_pause`); write frequency and load balancing interval 0, which the parsers accept, are remainders by zero (`C136_violated_intervals`) |
| C137 | `getTerminalWidth`, `printProgress` with the conversions between `size_t`, `int` and `double` (as `Rat`) | arithmetic of the conversions, floor of quotients | `_partial`: for one width, text plus three columns, and for negative `COLUMNS`, an exception ends the simulation (`C137_violated_width`, `C137_violated_columns`); percentages above 999999 are not modelled |
| C138 | `squaredParticlesPerCell`, `neighborListLength` with both helpers, the prefix sums of the loads of layers; the greedy slicing of C16 | the visited indices are a permutation of the cells of the region; partition by layers; invariant of the greedy loop | `_partial`: only for loads below 2^31, because the load before a slice is stored in an `int` (`C138_violated_int`); sums below 2^64 assumed |
| C139 | names of main and data files, entries of main files, number of digits | numbers are read back from the names; digits of equal length are ordered like their values | `_partial`: order only for simulations with a given number of iterations; a simulation limited by tuning phases has iterations 0 in its configuration, hence no leading zeros (`C139_violated_sorted`) |
| C140 | both `ConstexprMath::sqrt`: floating point over ℝ with a bounded number of passes (`.diverges` otherwise), integers with a largest value (overflow and division by zero undefined) | the distance to the root is halved in each step and the last step bounds it; invariant `x < (x0+1)^2` and well-founded induction | `_partial`: arguments above the tolerance; a positive argument up to the tolerance is returned itself (`C140_violated_small`); rounding errors and infinite arguments are left out |
| C141 | `estimateNumHalosUniform`, `LogicHandler::reserve`; `double` = `Rat`, conversion to `size_t` undefined out of range | algebra, floors | `_partial`: the particles of the box are counted as well, because the volume of the grown box is taken for that of the halo (`C141_violated_no_halo`); boxes without volume: `C141_violated_flat` |
| C142 | `currentMemoryUsage` (Linux) with `find`, `find_first_of`, `substr`, `strtol` on lists of characters | the line of the kernel has eight columns for the number; digits are read back | `_partial`: from 10^7 kB on; below, the last digit is lost (`C142_violated_digit`); program names with the key: `C142_violated_name` |
| C143 | `logTree`, `particlesToJSON`, the loops of `leavesToJSON`, the points of `recordDomainSubdivision`; files as lists of values or tokens | positions in concatenated lists; separators by induction; counting | `_partial`: the list of particles is well-formed exactly if the last leaf has particles or none has (`C143_violated_comma`); the points of a domain are in the wrong order for voxels (`C143_violated_voxel`); printing of numbers is left out |
| C144 | `estimateNumberOfIterations`, on top of the loop of C136; which time steps tune is derived from the tuner of C37 with full search and applicable configurations | a tuner that stops tuning stays so until the end of the interval, hence `TunesFirst`; counting the ends of phases by induction; C136 for the loop | `_partial`: too large by the tuning iterations of all phases but one (`C144_violated_exact`); `tuning-phases` does not override `iterations` as documented (`C144_violated_iterations`); phases longer than the interval and other strategies are missing |

## Defects of the code found on the way (not stated as properties)

* `AutoPasImpl.h:91`: interaction length computed as the product cutoff * skin per step * rebuild frequency.
* `LogicHandler::initSpacialLocks` may create zero locks per dimension in the capped branch; `resizeBox` sizes the locks without
  halo although the constructor includes it.
* `forEach`/`reduce` at the API skip the insertion buffers.
* `addHaloParticle` counts an update of an existing halo particle as a new halo particle.
* Rule orders ignore their `with same` part when applied.
* `LinkedCellsReferences::addParticleImpl` leaves its lock locked when the insertion throws.
* Deleting through an iterator of `linkedCellsReferences` only marks the particle as dummy; with an iterator that also visits
  dummies a delete-everything loop never ends.
* md-flexible, `exchangeHaloParticles`: halo particles received in an earlier dimension are wrapped around the box and sent on even if the
  dimension is not periodic (`C84_violated_spurious_ghost`); with local boxes narrower than two interaction lengths the `else if` loses edge and
  corner images (`C84_violated_missing_partner`, the configuration only checks that the global box is one interaction length wide); `isNearRel` has
  a relative tolerance of 1e-9, so far from the origin all ranks take themselves to be at the boundary (`C84_violated_far_from_origin`).
* md-flexible, `generateDecomposition` without a dimension to divide and two or more ranks is undefined behaviour
  (`C83_violated_nothing_to_divide`).
* md-flexible, `RegularGridDecomposition.h:216`: `std::vector<int> _periods{_dimensionCount, 1}` is the vector (3, 1) of length two, not three
  ones; `MPI_Cart_create` and `MPI_Cart_get` access three elements (not modelled).
* md-flexible, migration: in a non-periodic dimension a particle that leaves the box is dropped (or ends the program, if reflective) with one rank in
  this dimension, but re-enters on the opposite side with two or more (`C85_violated_open_boundary`, `C85_violated_reflecting_wall`).
* md-flexible, load balancing: domains narrower than four interaction lengths per pair of neighbours can be made narrower than the interaction length
  (`C86_violated_narrow`); two neighbours without load give a wall that is not a number (`C86_violated_no_load`).
* md-flexible, `Simulation::run`: no forces are computed before the first position update, and generated particles have force zero, so the first
  step drifts without force and gives half a kick only (`C88_violated_first_step`). The check for fast particles compares squares with an absolute
  tolerance of 1e-12 and never fires for a skin per time step of at most 2e-6 (`C88_violated_small_skin`).
* md-flexible, `updateSimulationPauseState`: the forces of reflective walls are deleted at the end of a tuning phase (`C89_violated_reflecting_wall`).
* md-flexible, `Thermostat`: all loops iterate over owned and halo particles (`C90_violated_halo`, `C90_violated_calcTemperature`); at temperature zero
  the velocities become non-finite (`C90_violated_at_rest`, `C90_violated_target_zero`).
* md-flexible, `reflectParticlesAtBoundaries`: a particle exactly on a lower wall gets a non-finite force (`C91_violated_on_the_wall`).
* `ContainerSelector::generateContainer` (ContainerSelector.h:173-181) uses the checked `addParticle`/`addHaloParticle`: if a particle crossed the boundary since the last `updateContainer`, switching throws (`C92_violated_moved`); halo particles beyond the interaction length get lost in the octree (`C92_violated_far_halo`).
* md-flexible, `calculateQuaternionsAndResetTorques` (TimeDiscretization.cpp:109-115): the fixed point loop does not end if a molecule turns by more than √17 radians in a time
  step (`C94_violated_hangs`). The velocity update adds torque over moment of inertia to the angular velocity and leaves out the gyroscopic term, so a free molecule with unequal
  moments of inertia does not keep its angular momentum (`C94_violated_angular_momentum`). At the end of a paused tuning phase forces are reset and computed again, torques are
  not reset, so all torques of the tuning phase act at once (`C94_violated_pause`).
* `LJMultisiteFunctor` without mixing: `_sitePositionsLJ` is `const` and empty and `setParticleProperties` assigns to it; the SoA kernels dereference `_PPLibrary`, which is null
  (LJMultisiteFunctor.h:445, 983, 1248, 1328); the neighbour list kernel adds the z-component of torques to the x-component (line 1481). The site arrays are reserved and then
  written with `operator[]` beyond their size (not modelled; undefined by the standard).
* md-flexible, `ParticleCommunicator::sendDataToNeighbor` (ParticleCommunicator.cpp:49): the size of the buffer is converted to `int`. From 2^31 bytes on (17895698 single-site
  molecules) the program is aborted by MPI, from 2^32 bytes on only a remainder is sent and the receiver reads beyond its buffer (`C96_too_long_aborts`, `C96_too_long_corrupts`).
* `PredictiveTuning::newtonPolynomial` (PredictiveTuning.cpp:217-229): when a stored polynomial is evaluated, the nodes are taken from index `size - 1 - n` on instead of `size - n`:
  with exactly `n` measurements this reads in front of the vector (`C97_newton_later_undefined`), with more the prediction is wrong (`C97_newton_later_wrong`).
  `linearRegression` (line 174) truncates the mean run time to whole nanoseconds before it multiplies it by the sum of iterations (`C97_regression_wrong`). `reset` drops
  configurations without evidence as soon as there is a prediction for any other one (`C97_unmeasured_forgotten`). The result of `relativeOptimumRange * best` is converted to
  `long` unchecked, which is undefined if all predictions overflowed.
* `SPHCalcHydroForceFunctor` (SPHCalcHydroForceFunctor.h:55-62 and the SoA functions): whether two particles interact is decided with the smoothing length of the first argument only. For
  particles with different smoothing lengths the result depends on the order of the arguments, which the traversal chooses (`C99_order_matters`), and without Newton 3 the pair's momentum
  is not conserved (`C99_momentum_violated`).
* `RuleBasedTuning::applyRules` (RuleBasedTuning.cpp:184-199) removes every configuration that matches the right hand side of an applicable rule, also if nothing in the search space
  matches the left hand side and agrees in the properties behind `with same`. With right rules the fastest configuration can be lost (`C101_violated_no_counterpart`). In verify mode
  `verifyCurrentConfigTime` treats a configuration that matches both sides only as the worse one (`C101_violated_overlap`), and `_traversalTimes` is not cleared by `reset`, so times
  of earlier phases are compared with current ones (`C101_violated_stale_times`). The default error printer is an empty `std::function`, calling it throws.
* `AutoPas::init` (AutoPasImpl.h:90-91): for an interval of cell size factors the interaction length is computed as `cutoff * verletSkinPerTimestep * rebuildFrequency` instead of
  `cutoff + ...`. Relevant factors are missing, `init` may even throw (`C102_violated_interval_empty`), or many factors are taken that lead to the same number of cells
  (`C102_violated_interval_redundant`). Without skin it divides by zero and converts infinity to `unsigned int`.
* Fuzzy tuning: the literal of a cell size factor in a pattern of a rule file is a `size_t` (TranslationVisitor.cpp:204), but `ConfigurationPattern::add` only inserts `double`s into the
  cell size factors, so the constraint is dropped silently and the pattern matches any cell size factor (`C103_violated_cell_size_factor`). `centerOfGravity` returns 0 if no rule fires,
  also outside of the range of the output (`C103_violated_no_rule_fires`). The sampling loops never end if the range of the output variable is one value (`C103_violated_point_range`).
  In suitability mode a negative best suitability selects nothing (`C103_violated_negative_suitability`). Both modes copy the filtered queue in reverse order, so the configurations are
  tested from the end of the search space (`C103_reset`), unlike with all other strategies.
* `CubeGauss` (examples/md-flexible/src/configuration/objects/CubeGauss.h) documents the mean of the distribution as relative to the lower corner of the box, but it is used as an absolute
  position: a box that does not start at the origin makes the generator give up after 100 attempts (`C104_violated_gauss_mean`). `CubeGrid::getParticlesTotal` multiplies the numbers of
  particles per dimension with an `int` accumulator and overflows for large grids (`C104_violated_number`).
* Checkpoints of md-flexible: a rank without particles cannot be loaded (`loadParticlesFromRankRecord` throws if the number of points is 0, `C105_violated_empty_rank`). The number of
  ranks is the number of occurrences of words that begin with `Piece` in the `.pvtu` file, including those in session names (`C105_violated_name`). Checkpoints given without directory
  are not found (`C105_violated_plain_name`). `findWord` does not end on a stream in a failed state, so NaN values make loading hang (`C105_violated_nan`). The guard that increases the
  precision next to the upper border of the box (ParallelVtkWriter.cpp) only works for borders with at most six significant digits below 10⁵ (`C105_violated_border`,
  `C105_violated_large_box`, `C105_violated_tie`); such particles are loaded outside of the box and `Simulation::loadParticles` then throws.
* LOESS smoothing (tuning/utils/Smoothing.cpp): the fitted line is evaluated at the end of its interval, where it overshoots. A configuration measured with 1000, 1000, 10, 10, 10 gets
  the evidence -122 and is preferred to one measured with 5 every time (`C107_violated_outlier`). The threshold against clumped points uses the range of the whole history instead
  of that of the neighbourhood, so that after about a thousand tuning phases the fit is silently replaced by a weighted mean (`C107_violated_window`). If all points come from
  one iteration the weights are 0/0, the check for a sum of zero does not detect this (`C107_violated_same_iteration`).
* Random search (tuning/tuningStrategy/RandomSearch.cpp): when the queue is empty, because the search space has fewer configurations than are to be tested (10 by default) or the last
  one was rejected, the distribution is built over `(0, size() - 1) = (0, 2⁶⁴ - 1)` and both arguments of `std::swap` lie outside of the vector (`C108_violated_small_space`). `reset`
  does not draw, so the first configuration of every phase is always the same.
* Replaying logs of tuning (tuning/tuningStrategy/TuningStrategyLogReplayer.cpp): the queue is filled once, before the loop, and emptied by the first evaluation, so all later phases of
  a log are ignored (`C109_violated_later_phases`). The flag with which a strategy says that it emptied the queue on purpose is ignored and `configQueue.back()` is called on the empty
  vector (`C109_violated_wipe`). A log that ends inside a measurement, as it does after a crash, makes the stream operator of the options loop for ever (`C109_violated_truncated`).
  `Configuration::toString` writes six decimals of the cell size factor and the replayer looks measurements up by the exact value (`C109_violated_decimals`).
* Divide-and-conquer tuning of MPI ranks (tuning/tuningStrategy/MPIParallelizedStrategy.cpp): a queue is only stretched when it has exactly one configuration left. With more configurations
  than ranks but fewer than twice as many, the ranks that got one configuration have an empty queue at the first check, leave the phase, and the others block in the next
  collective call (`C110_violated_ranks_wait_for_ever`). The globally best configuration is only used for stretching: with evenly spread configurations each rank settles on the best of
  its own part (`C110_violated_optimum_not_shared`). `optimizeSuggestions` asks for the latest optimum even if nothing was measured yet, which throws when the first configuration is
  rejected (`C110_violated_first_rejected`), and rejecting the last configuration of a rank ends in `back()` of an empty vector (`C110_violated_last_rejected`). Only rank 0 learns
  that all ranks use the fallback configuration, and the flag is never reset.

**C111 (forEach, reduce).** `AutoPas::forEach`, `reduce` and their region versions only look at the container: a particle added while neighbour lists are valid waits in a buffer of the LogicHandler and is skipped, although iterators visit it (`C111_violated_buffers`). `DirectSum::forEach` / `reduce` and those of Octree do not check the ownership of the particles, so that particles handed back by `updateContainer` and kept as dummies are still treated as owned (`C111_violated_dummies`). `Octree::forEachInRegion` skips leaves whose boxes do not touch the region, with no margin for particles that have moved (`C111_violated_octree_region`). Behaviours without a name of their own, e.g. `owned | forceSequential`, make these functions throw (`C111_unnamed_throws`).

**C112 (LiveInfo).** `LiveInfo::gather` computes the average number of particles per cell as `container.getNumberOfParticles() - particleBins.back()`: the first number counts owned particles only (the default of the parameter), the second one the particles outside of the box, so the halo particles are subtracted from a number that does not contain them, in unsigned arithmetic. With more halo than owned particles the average is close to 2^64 (`C112_violated_average`). The standard deviations divide the root of the sum of squares by the number of cells instead of its root (`C112_violated_stdDev`). The number of cells is a product of `int` and overflows for boxes of 1300 cutoffs per side (`C112_violated_many_cells`).

**C113 (forEach and reduce of VerletClusterLists).** ClusterTower has no loops of its own, so `forEach` and `reduce` go through the padding of the last cluster of a tower; with `dummy` or `ownedOrHaloOrDummy` the code gets particles that nobody added, with the largest `size_t` as ID, which iterators do not visit (`C113_violated_padding`). With different numbers of towers per interaction length in x and y, `forEachInRegion` and `reduceInRegion` miss particles, as iterators do (`C113_violated_region`).

**C114 (Bayesian search).** `optimizeSuggestions` sorts the samples by ascending value of the acquisition function and copies the common ones in reverse order of what is needed, so the configuration with the *smallest* value is tested next: with perfect predictions the fastest configuration is the last to be tested (`C114_violated_best_first`). The exception for too many attempts is inside of the loop `while (i < maxAttempts)` with the condition `i == maxAttempts` and cannot be reached (`C114_violated_abort`). Configurations that are not in the current sample are removed from the queue for the rest of the phase.

**C115 (Gaussian process).** `predictVar` averages the variances of the predictions of the sets of hyperparameters but leaves out that their means differ: it is smaller than the variance of the distribution that `predictMean` is the mean of (`C115_variance_gap`, `C115_violated_variance`).

**C116 (sampling).** `Random::uniformSample` shuffles the part of the last copy of the pool that is cut off afterwards instead of the whole copy, so the elements that occur once more are always the first ones of the pool; with fewer samples than elements, the last elements are never drawn (`C116_violated_never_drawn`, `C116_violated_lhs`). `pickRandom` of an empty container is undefined, and `lhsSampleFeatures` without options loops up to the largest `size_t` for ever (`C116_violated_pick_empty`, `C116_violated_no_options`).

**C117 (acquisition functions).** `sampleAquisitionMax` reads `samples[0]` without a check (`C117_violated_no_samples`). Not modelled: `BayesianSearch::sampleAcquisitions` goes on using an iterator after `erase` has invalidated it (it ignores the returned iterator).

**C118 (distribution among ranks).** If an allowed container has no allowed traversal, `selectTraversalsForCurrentContainer` leaves an empty set whose first element is dereferenced (`C118_violated_no_traversal`); a single process just skips such a container. The estimator `none`, which is added for traversals without load estimation, is then also offered to traversals with load estimation, although it is not allowed (`C118_violated_forbidden_estimator`). Intervals of cell size factors are divided by an offset within the block of ranks with the same configuration, but the offset is not reset if there are at least as many configurations as ranks, and the block size is stored before the remainder is added: ranks get factors above the allowed interval or lose parts of it (`C118_violated_interval_outside`, `C118_violated_interval_lost`).

**`LJFunctorSVE` with mixing (C119).** (1) `SoAFunctorPairImpl` passes `typeID1ptr`, the type of the first particle of the cell, instead of `&typeID1ptr[i]`. (2) `lennardJones<false>` loads the types of the second particles with `svld1_u64(pgC, typeID2ptr)`, from the beginning of the array, whatever `j` is. (3) `SoAFunctorVerletImpl` passes `typeIDptr` instead of `&typeIDptr[indexFirst]`. With particles of different types the forces and energies are wrong: `C119_violated_pair_first_type`, `C119_violated_lane_types`, `C119_violated_list_first_type`. md-flexible uses the functor with mixing.

**C120 (`GaussianCluster`).** (1) `clear` iterates with `for (auto cluster : _clusters) cluster.clear();`, by value: the copies are cleared, the evidence stays and all predictions are as before (`C120_violated_clear`); only the counter is 0. (2) The combined score of a set of hyperparameters is, according to the comment, the product of the scores of the clusters; the code adds them (`C120_likelihood`), so that clusters without evidence (likelihood 1) outweigh the others. (3) `sampleAcquisitionMax` without samples dereferences the end (`C120_violated_no_samples`). (4) `setDimensions` with a dimension that is not positive throws after the dimensions have been replaced, while the clusters are still the old ones.

**C121 (`BayesianClusterSearch`).** (1) As in `BayesianSearch`, the queue is filled in descending order, but the tuner takes from its end: the configuration with the lowest acquisition is measured first, and with fewer measurements than suggestions those with the highest acquisition are never measured (`C121_violated_best_first`). (2) `rejectConfiguration` ignores `indefinitely` (`C121_violated_rejected`). (3) `if (i == maxAttempts)` inside `for (i < maxAttempts)` never holds, so the exception is never thrown (`C121_violated_abort`).

**C122 (examples for smoothed particle hydrodynamics).** (1) `periodicBoundaryUpdate` sends only leaving particles within one cutoff of the box; one that is faster is sent to nobody and disappears silently (`C122_violated_fast_particle`); the serial example would keep it. (2) Nothing checks that the local boxes are at least one cutoff wide; with more ranks partners are missing (`C122_violated_narrow_box`; the box of the example is 1/8 wide and the cutoff 0.03, so five ranks in that dimension are too many). (3) Read, not modelled: `skin` in `updateHaloParticles` is unused; `printConservativeVariables` throws on rank 0 only, the other ranks then wait in the next exchange; on other ranks `MPI_Reduce` gets the same buffer twice.

**C124 (serial replacement of MPI).** `AutoPas_MPI_Gather` without MPI multiplies counts by `sizeof(datatype_send)`, the size of the enumeration (4), instead of by the value of the enumerator. Only four byte types are gathered correctly (`C124_gather_iff`); of a `double` half of the bytes arrive (`C124_violated_gather_double`), bytes are read and written out of bounds (`C124_violated_gather_bytes`), and a send count of zero divides by zero (`C124_violated_gather_nothing`). Hence `gatherConfigurations` has undefined behaviour in every build without MPI (`C124_violated_gatherConfigurations`). `LONG_INT` is 12 although the struct has 16 bytes, so more than one pair is not reduced completely (`C124_violated_minloc`). `Recv` from oneself fails although `Send` to oneself succeeds; `Irecv` claims success and leaves request and buffer unset (`C124_violated_self_message`); `Cart_get` sets nothing (`C124_violated_cart_get`).

**C125 (`ActiveHarmony`).** `optimizeSuggestions` never changes the queue it is given (the parameter is only read), so Active Harmony performs a full search with extra calls of the server (`C125_full_search`, `C125_violated_no_effect`). With a local server that has converged to a configuration that is not in the queue the loop `do … while` never ends (`C125_violated_diverges`). Such configurations are ordinary: the container is the first one that is compatible with the fetched traversal, not one of the allowed ones (`C125_violated_container`: only LinkedCellsReferences allowed), and cell size factors pass through `std::to_string`, which keeps six decimals (`C125_violated_csf`). If only the load estimators differ, the search space counts as trivial, no session is opened, and the first tuning phase calls the library with a null pointer (`C125_violated_no_session`). `_tuningPhase` is never updated, so that from the second phase on measured configurations are not recognised (`C125_violated_phase`).

**C126 (`ExceptionHandler`).** `rethrow` outside of a catch block calls `exception` while it holds the lock: the thread waits for itself for ever (`C126_violated_rethrow_outside`). The same happens if a custom abort function reports an exception (`C126_violated_reentrant_abort`). Exceptions that are not derived from `std::exception` pass through `rethrow` whatever the behaviour (`C126_violated_foreign`).

**C128 (set up of strategies).** `TuningStrategyFactoryInfo::interactionType` is never assigned, so strategies are constructed with the interaction type `Value(-1)`. The constructors of `BayesianSearch` and `BayesianClusterSearch` pass it to `allCompatibleTraversals`, which throws: `AutoPas::init` throws for every user who selects them (`C128_violated_bayesian`; the same holds for the options `fullSearch` and `tuningStrategyLogger`). `ActiveHarmony` stamps the unset type on every fetched configuration, which hence is never in the queue (`C128_violated_harmony`), and a local server that has converged makes it loop for ever (`C128_violated_harmony_diverges`). Even when a Bayesian strategy is constructed with the right type, its encoder is default constructed and its samples have the unset type, so the strategy never changes the queue (`C128_violated_blind`, `C128_violated_blind_cluster`). The fallback of the MPI strategy has the unset type as well and is never in the search space (`C128_violated_fallback`); for triplets it would combine `lc_c01` with newton 3 (`C128_violated_fallback_triwise`). `inferOptionDimensions` adds combinations with the load estimator `none` that the user excluded, if some traversal takes no load estimator (`C128_violated_infer`).

**C129 (energy).** `sampleEnergy` returns the values of the meter even if energy cannot be measured; these members have no initialiser. So every iteration reads indeterminate values in builds without energy measurements, the default (`C129_violated_disabled`), on machines without support (`C129_violated_no_support`), and on machines without the counter `psys`, whose unit is never set, although `init` succeeds (`C129_violated_no_psys`). If a counter cannot be read any more, the measurement is flagged valid but has stale and incomplete values, since the flag is taken before (`C129_violated_stale`). A CPU is measured only if its package number is greater than all before, so packages that do not appear in increasing order are left out (`C129_violated_packages`; exactly then, `C129_packages`). A second `init` counts packages twice (`C129_violated_twice`). On a file that cannot be parsed `init` returns without `fclose`, and an empty file (`EOF`) leaves `package` indeterminate (`C129_violated_files`).

**C130 (FLOP counter).** The counter of global calculations is documented to exclude owned-halo pairs with newton 3, but includes them, so that more operations are reported than executed (`C130_violated_owned_halo`; the exact difference is in `C130_executed_partial`). If no pair was looked at, the hit rate is 0/0 and `FLOPLogger` writes "Not Implemented" although it is (`C130_violated_no_pairs`).

**C131 (`SoA`, `SoALoader`, `SoAExtractor`).** The offsets of cells in the arrays are computed with `std::inclusive_scan(..., 0)`; the type of the initial value, `int`, is the type of the
running sum, so from 2^31 particles on offsets are negative, become huge as `size_t`, and `resizeArrays` throws (`C131_violated_int`). Everything else holds for all inputs. `push` makes
one array longer than the others; histories in `C131_records` therefore consist of the other operations, and `C131_push` covers pushing whole records.

**C132 (log files).** `TuningDataLogger` has one column per sample, but writes the samples with and without rebuilding as two lists. If one is empty, an empty field remains, so the line has one field more
than the header, and the columns `Reduced` and `Smoothed` have wrong values (`C132_violated_samples`); with one sample per configuration this is so in every line (`C132_violated_one_sample`).
The columns of energies are decided once when the log is opened, the values in each iteration (`C132_violated_energy`). Names of functors are written without quotes, so a comma shifts all columns (`C132_violated_functor`).

**C133 (command line of md-flexible).** `--use-LOESS-smoothening true` sets the option to `false` (`C133_violated_loess`). All arguments are turned into lower case, also names of log files and output folders, so on
case-sensitive file systems output goes elsewhere (`C133_violated_texts`; names of input files are not changed). `std::stoul` accepts `-1` as 2^64 - 1, `1e6` as 1, and casts to `unsigned int` wrap (`C133_violated_numbers`).
`--load-balancing-interval` is parsed without `try`, so a typing error ends the program with an exception instead of the help message (`C133_violated_interval`). If the argument of an option that takes
one name has only delimiters, `*parsedOptions.begin()` of an empty set is dereferenced (`C133_violated_blank`).

**C134 (input files of md-flexible).** Options read with `as<int>` or `as<long>` are stored without sign before the check `< 1` or `< 0`, so negative numbers are accepted: `tuning-interval: -1` means 4294967295
(`C134_violated_negative`). Errors in `Sites` are collected but never reported, so a site without mass is accepted and its mass is not initialised (`C134_violated_mass`); the numbers of sites in the file are ignored,
they are numbered by position (`C134_violated_site_ids`). `tuning-strategies: random-search` without brackets is silently an empty list (`C134_violated_strategies`). A key without a value gives the text `null`
(`C134_violated_suffix`). An empty text for an option with one name dereferences `begin()` of an empty set (`C134_violated_blank`). If a key is repeated, the first one counts.

**C135 (end configuration of md-flexible).** The file has blocks `PairwiseInteraction` and `ThreeBodyInteraction` that the parser does not know, so it is never accepted as an input file if there is any interaction
(`C135_violated_interactions`). An empty output suffix comes back as `null` (`C135_violated_suffix`), numbers are printed with six digits (`C135_violated_digits`), and load estimators, log file and output folder
are not printed (`C135_violated_unprinted`). Everything else is restored (`C135_partial`, `C135_printed`). Not modelled: characters with a meaning in YAML in texts, intervals of cell sizes (printed without brackets).

**C139 (names of vtk files).** If the simulation is limited by tuning phases, the number of iterations in the configuration is set to 0 before the number of digits is computed from it; the files
have no leading zeros and iteration 10 is sorted before iteration 9 (`C139_violated_sorted`).

**C140 (square roots at compile time).** The loop compares the first value, the argument, with 0; a positive argument not larger than the tolerance is returned unchanged, although its root is larger
(`C140_violated_small`).

**C141 (estimated number of halo particles).** The volume of the box with halo is taken for the volume of the halo, so the estimate includes the particles of the box; with halo width 0 it is their number
instead of 0 (`C141_violated_no_halo`). Only memory is reserved by it.

**C142 (memory usage).** `substr` is called with the position of the first blank instead of a number of characters. The number is aligned to the right in eight columns, so the first blank is in front of
it, and seven characters are taken: the last digit is lost and a tenth of the memory is reported, for all processes below 10^7 kB (`C142_violated_digit`).

**C143 (files of octrees and domains).** `particlesToJSON` puts a comma behind each particle of all leaves but the last; if the last leaf is empty, the list ends with a comma and is no JSON (`C143_violated_comma`).
The domain of a rank is written as `VTK_VOXEL` (type 11), but with z varying fastest instead of x (`C143_violated_voxel`).

**C144 (estimated number of iterations).** `estimateNumberOfIterations` adds the tuning iterations of all phases to the intervals between their starts, which contain all but those of the last phase (`C144_violated_exact`).
`--tuning-phases` is documented to override `--iterations`, but `needsMoreIterations` waits for both (`C144_violated_iterations`), and then the progress bar exceeds 100 %.
