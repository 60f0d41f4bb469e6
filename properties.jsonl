{"id": "C01", "title": "Cell numbering is a bijection", "statement": "Converting a 3-D cell coordinate to the flat cell number and back is lossless: every coordinate inside the grid gets a flat number inside the cell array, no two coordinates share a number, and every number of the cell array is hit.", "quantifier": "all grid dimensions (any size per axis) and all coordinates / flat numbers in range", "why_tests_cant": "Unit tests enumerate a few tiny grids; a collision or an out-of-range number for one odd aspect ratio is invisible to them.", "anchors": ["src/autopas/utils/ThreeDimensionalMapping.h: threeToOneD, oneToThreeD"]}
{"id": "C02", "title": "A position is always stored in an existing cell of the right kind", "statement": "Looking up the cell of a particle position never yields a cell outside the cell array, and the cell is an owned (non-halo) cell exactly when the position lies inside the user's box [boxMin, boxMax), no matter how floating point rounding perturbs the raw cell coordinate.", "quantifier": "all boxes, interaction lengths, cell size factors, all positions (in box, on its faces, outside) and all rounding errors of the division/floor step", "why_tests_cant": "The failing cases sit on rounding boundaries of boxes of arbitrary size; no finite set of positions covers them.", "anchors": ["src/autopas/containers/CellBlock3D.h: get3DIndexOfPosition, rebuild, cellCanContainHaloParticles"]}
{"id": "C03", "title": "Clearing the halo removes halo cells only, and all of them", "statement": "Discarding halo particles empties every halo cell and leaves every owned cell untouched, for every grid shape and number of halo layers.", "quantifier": "all grid dimensions and halo widths, all cell contents", "why_tests_cant": "The loop bounds must be right for every combination of grid size and halo width, including grids thinner than the halo.", "anchors": ["src/autopas/containers/CellBlock3D.h: clearHaloCells, cellCanContainHaloParticles"]}
{"id": "C04", "title": "Cell bounding boxes tile the box with halo", "statement": "Every point of the box including halo lies in exactly one cell's bounding box, and (in exact arithmetic) that is the cell the lookup function returns.", "quantifier": "all boxes, interaction lengths, cell size factors and points", "why_tests_cant": "A gap or overlap can appear for one specific box/cell-size ratio.", "anchors": ["src/autopas/containers/CellBlock3D.h: getCellBoundingBox, get3DIndexOfPosition, rebuild"]}
{"id": "C05", "title": "Halo layers and cell overlap are wide enough", "statement": "The number of halo layers times the cell length is at least the interaction length, and any two positions closer than the interaction length lie in cells whose indices differ by at most the traversal's overlap in every axis.", "quantifier": "all boxes, interaction lengths > 0, cell size factors > 0, all pairs of positions", "why_tests_cant": "Missing a neighbour needs an unlucky combination of box length, cutoff and cell size factor.", "anchors": ["src/autopas/containers/CellBlock3D.h: rebuild", "src/autopas/containers/cellTraversals/ColorBasedTraversal.h: overlap computation"]}
{"id": "C06", "title": "Colour traversals visit every base cell exactly once", "statement": "A colour-based traversal calls its loop body exactly once for every cell of its iteration range, whatever stride and offset it uses.", "quantifier": "all grid sizes, strides > 0 and offsets", "why_tests_cant": "Tests use a few fixed grid sizes; the colour loop must be right for every remainder of size modulo stride.", "anchors": ["src/autopas/containers/cellTraversals/ColorBasedTraversal.h: colorTraversal"]}
{"id": "C07", "title": "lc_c08 processes every neighbouring pair of cells exactly once", "statement": "For every grid and overlap, the c08 traversal processes each unordered pair of distinct cells that are within the overlap of each other and that are not both halo cells exactly once, each non-halo cell with itself exactly once, and never addresses a cell outside the grid.", "quantifier": "all grid dimensions and overlaps (per axis)", "why_tests_cant": "Exactly-once over all pairs of all grids is a universally quantified combinatorial statement.", "anchors": ["src/autopas/containers/linkedCells/traversals/LCC08CellHandler.h", "src/autopas/containers/linkedCells/traversals/LCC08CellHandlerUtility.cpp: computePairwiseCellOffsetsC08", "src/autopas/containers/cellTraversals/C08BasedTraversal.h"]}
{"id": "C08", "title": "lc_c08 is free of data races", "statement": "Two base cells that the c08 traversal may process concurrently (same colour) never touch a common cell.", "quantifier": "all grids, overlaps, pairs of base cells of the same colour, i.e. every thread schedule", "why_tests_cant": "Races show up only under particular schedules.", "anchors": ["src/autopas/containers/cellTraversals/C08BasedTraversal.h", "src/autopas/containers/linkedCells/traversals/LCC08Traversal.h"]}
{"id": "C09", "title": "lc_c18 processes every neighbouring pair of cells exactly once", "statement": "For every grid and overlap the c18 traversal processes each unordered pair of distinct cells that are within the overlap of each other and that are not both halo cells exactly once, each non-halo cell with itself exactly once, and never addresses a cell outside the grid.", "quantifier": "all grid dimensions and overlaps", "why_tests_cant": "Combinatorial statement over all grids.", "anchors": ["src/autopas/containers/linkedCells/traversals/LCC18Traversal.h: computeOffsets, processBaseCell", "src/autopas/containers/cellTraversals/C18BasedTraversal.h"]}
{"id": "C10", "title": "lc_c18 is free of data races", "statement": "Two base cells the c18 traversal may process concurrently never touch a common cell.", "quantifier": "all grids, overlaps, pairs of base cells of one colour", "why_tests_cant": "Races depend on the schedule.", "anchors": ["src/autopas/containers/cellTraversals/C18BasedTraversal.h", "src/autopas/containers/linkedCells/traversals/LCC18Traversal.h"]}
{"id": "C11", "title": "lc_c01 reaches every neighbour and writes only its own cell", "statement": "For every non-halo cell, c01 combines it exactly once with every cell within the overlap (itself included) and modifies only particles of that cell, so any parallel schedule is race free.", "quantifier": "all grids and overlaps", "why_tests_cant": "Combinatorial statement over all grids and schedules.", "anchors": ["src/autopas/containers/linkedCells/traversals/LCC01Traversal.h: computePairwiseOffsets, processBaseCell", "src/autopas/containers/cellTraversals/C01BasedTraversal.h"]}
{"id": "C12", "title": "lc_c04 (32-packs) covers every base cell once and is race free", "statement": "The c04 traversal processes every base cell exactly once, and 32-packs of one colour never touch a common cell.", "quantifier": "all grid sizes accepted by isApplicable", "why_tests_cant": "The body-centred packing has to tile every grid size, including ones not divisible by the pack size.", "anchors": ["src/autopas/containers/linkedCells/traversals/LCC04Traversal.h: traverseSingleColor, processBasePack32"]}
{"id": "C13", "title": "lc_c04_HCP (6-packs) covers every base cell once and is race free", "statement": "The c04_HCP traversal processes every base cell exactly once, and 6-packs of one colour never touch a common cell.", "quantifier": "all grid sizes accepted by isApplicable", "why_tests_cant": "The hexagonal packing has to tile every grid size.", "anchors": ["src/autopas/containers/linkedCells/traversals/LCC04HCPTraversal.h: traverseSingleColor, processBasePack6"]}
{"id": "C14", "title": "lc_sliced: the lock protocol is race free and cannot deadlock", "statement": "Under every interleaving of the slice threads, no two threads are ever inside the same layer's shared cells at the same time, some thread can always make progress until all slices are finished, and every base cell is processed exactly once.", "quantifier": "all numbers of slices, slice thicknesses >= overlap+1, and all interleavings", "why_tests_cant": "Deadlocks and races depend on the schedule.", "anchors": ["src/autopas/containers/cellTraversals/SlicedLockBasedTraversal.h: slicedTraversal", "src/autopas/containers/cellTraversals/SlicedBasedTraversal.h"]}
{"id": "C15", "title": "sliced_c02: concurrently processed slices are disjoint", "statement": "Slices of one colour of the c02 sliced traversal never touch a common cell and the slices partition the iteration range.", "quantifier": "all grid sizes and overlaps", "why_tests_cant": "Race freedom for all sizes.", "anchors": ["src/autopas/containers/cellTraversals/SlicedC02BasedTraversal.h: cSlicedTraversal, initTraversal"]}
{"id": "C16", "title": "Slice thickness computations partition the grid", "statement": "Both the plain and the load-balanced slice computation yield slices whose thicknesses sum to the length of the sliced axis and are each at least the minimum thickness, for any load values.", "quantifier": "all grid lengths, thread counts, overlaps and load estimates", "why_tests_cant": "Load estimates are arbitrary data.", "anchors": ["src/autopas/containers/cellTraversals/SlicedBasedTraversal.h: initSliceThickness", "src/autopas/containers/cellTraversals/SlicedBalancedBasedTraversal.h: initTraversal"]}
{"id": "C17", "title": "Pairwise cell processing applies the functor exactly once per pair", "statement": "Processing one cell, or a pair of cells, applies the pair functor exactly once to each unordered pair with Newton 3, and exactly once per direction without it; with bidirectional processing both directions are covered.", "quantifier": "all cell contents (any number of particles), data layouts modelled at AoS level, with and without sorting", "why_tests_cant": "Quantifies over all list lengths and the sorting threshold.", "anchors": ["src/autopas/baseFunctors/CellFunctor.h: processCell, processCellPair"]}
{"id": "C18", "title": "Sorted early exit never skips an interacting pair", "statement": "When particles are sorted along the connecting direction, stopping at the first particle whose projected distance exceeds the sorting cutoff skips only pairs that are farther apart than that cutoff.", "quantifier": "all particle positions, directions and cutoffs (exact arithmetic)", "why_tests_cant": "Continuous domain.", "anchors": ["src/autopas/baseFunctors/CellFunctor.h: processCellAoS, processCellPairAoS*", "src/autopas/cells/SortedCellView.h"]}
{"id": "C19", "title": "Three-body cell processing applies the functor exactly once per triplet", "statement": "Processing one cell, two cells or three cells applies the triplet functor exactly once to each unordered triplet (with Newton 3) and to each choice of the affected particle (without it).", "quantifier": "all cell contents", "why_tests_cant": "Quantifies over all list lengths.", "anchors": ["src/autopas/baseFunctors/CellFunctor3B.h"]}
{"id": "C20", "title": "Freshly added particles interact completely", "statement": "Particles still held in the insertion buffers interact exactly once with every other particle closer than the cutoff (container, other buffers, halo buffers), for every number of threads/buffers; no pair is lost or doubled by the remainder computation.", "quantifier": "all buffer counts and contents, with and without Newton 3", "why_tests_cant": "Quantifies over all distributions of particles to buffers.", "anchors": ["src/autopas/LogicHandler.h: computeRemainderInteractions2B, remainderHelperBufferContainer, remainderHelperBufferBuffer, remainderHelperBufferHaloBuffer"]}
{"id": "C21", "title": "Freshly added particles take part in all three-body interactions", "statement": "For a triwise functor, every triplet with at least one buffered owned particle is evaluated exactly once by the remainder computation.", "quantifier": "all buffer contents", "why_tests_cant": "Quantifies over all distributions of particles to buffers.", "anchors": ["src/autopas/LogicHandler.h: computeRemainderInteractions3B and helpers"]}
{"id": "C22", "title": "Neighbour lists stay complete within the skin", "statement": "If a neighbour list contains all pairs within interaction length (cutoff + skin) at build time and every particle has moved at most half the skin since, then every pair currently within the cutoff is still in the list.", "quantifier": "all particle configurations and motions in 3-D", "why_tests_cant": "Continuous domain, all motions.", "anchors": ["src/autopas/containers/verletListsCellBased/verletLists/VerletListHelpers.h", "src/autopas/LogicHandler.h: neighborListsAreValid"]}
{"id": "C23", "title": "Neighbour lists are rebuilt at least every rebuildFrequency iterations", "statement": "In every history of update/compute calls, neighbour lists are never used for more than rebuildFrequency iterations after they were built.", "quantifier": "all histories of API calls", "why_tests_cant": "Histories are unbounded.", "anchors": ["src/autopas/LogicHandler.h: updateContainer, neighborListsAreValid, computeInteractions"]}
{"id": "C24", "title": "A container switch is always followed by a neighbour list build", "statement": "Whenever the tuner switches to another container or configuration, the neighbour lists of the new container are built before they are used.", "quantifier": "all histories, tuning intervals, rebuild frequencies and retune requests", "why_tests_cant": "Depends on the alignment of three counters over unbounded histories.", "anchors": ["src/autopas/LogicHandler.h: computeInteractionsPipeline, selectConfiguration, neighborListsAreValid", "src/autopas/tuning/AutoTuner.cpp: willRebuildNeighborLists, prepareIteration, tuneConfiguration"]}
{"id": "C25", "title": "No particle is lost or duplicated", "statement": "Under any sequence of add, delete, move and update operations the multiset of owned particles managed by AutoPas equals what the user put in, minus what they deleted and minus what was handed back as leaving.", "quantifier": "all operation histories, all buffer/container distributions", "why_tests_cant": "Unbounded histories.", "anchors": ["src/autopas/LogicHandler.h: addParticle, updateContainer, collectLeavingParticlesFromBuffer, deleteParticle, deleteAllParticles", "src/autopas/containers/linkedCells/LinkedCells.h: updateContainer"]}
{"id": "C26", "title": "Reported particle numbers are right", "statement": "The number of owned particles reported by AutoPas equals the number of owned particles actually stored after every operation history.", "quantifier": "all histories", "why_tests_cant": "Unbounded histories.", "anchors": ["src/autopas/LogicHandler.h: _numParticlesOwned, _numParticlesHalo, decreaseParticleCounter"]}
{"id": "C27", "title": "Leaving particles are exactly the owned particles outside the box", "statement": "updateContainer hands back each owned particle that is outside the box exactly once, and no particle that is inside.", "quantifier": "all particle sets, positions, and both the rebuild and the keep-lists mode", "why_tests_cant": "All particle sets; boundary layer cells must be exactly the ones a particle may leave from.", "anchors": ["src/autopas/containers/LeavingParticleCollector.h", "src/autopas/containers/linkedCells/LinkedCells.h: updateContainer", "src/autopas/LogicHandler.h: updateContainer"]}
{"id": "C28", "title": "Balancing buffers keeps every element and evens sizes", "statement": "Balancing a set of vectors terminates, keeps the multiset of elements, and leaves sizes differing by at most one (first vectors larger).", "quantifier": "all numbers and contents of vectors", "why_tests_cant": "Unbounded inputs; the loop uses iterators moving from both ends.", "anchors": ["src/autopas/utils/ArrayUtils.h: balanceVectors"]}
{"id": "C29", "title": "resizeBox hands back exactly the owned particles outside the new box", "statement": "resizeBox returns every owned particle that is outside the new box exactly once and keeps the others, including those still in insertion buffers.", "quantifier": "all particle sets, old and new boxes", "why_tests_cant": "All particle sets and boxes.", "anchors": ["src/autopas/LogicHandler.h: resizeBox"]}
{"id": "C30", "title": "Iteration visits every matching particle exactly once", "statement": "Iterating without modification visits every stored particle matching the behaviour flags exactly once, including particles in insertion buffers.", "quantifier": "all containers' cell contents, behaviours and buffer contents", "why_tests_cant": "All distributions of particles to cells (including empty cells).", "anchors": ["src/autopas/iterators/ContainerIterator.h", "src/autopas/containers/linkedCells/LinkedCells.h: getParticleImpl, advanceIteratorIndices", "src/autopas/LogicHandler.h: begin"]}
{"id": "C31", "title": "Parallel iteration partitions the particles", "statement": "When T threads iterate concurrently, each matching particle is visited by exactly one thread.", "quantifier": "all thread counts and cell contents", "why_tests_cant": "All thread counts.", "anchors": ["src/autopas/iterators/ContainerIterator.h", "src/autopas/containers/linkedCells/LinkedCells.h: advanceIteratorIndices"]}
{"id": "C32", "title": "Region iteration is exact", "statement": "Iterating a region visits exactly the matching particles whose position lies in the region, as long as particles have moved at most half the skin since they were sorted into cells.", "quantifier": "all regions, particle sets and displacements within the skin", "why_tests_cant": "Continuous domain.", "anchors": ["src/autopas/containers/linkedCells/LinkedCells.h: getParticleImpl, forEachInRegion", "src/autopas/containers/CellBlock3D.h: get1DIndexOfPosition"]}
{"id": "C33", "title": "Deleting while iterating is safe", "statement": "If the current particle may be deleted at every step of an iteration, each particle matching the behaviour is still visited exactly once and exactly the requested particles are removed.", "quantifier": "all cell contents and all choices of which particles to delete", "why_tests_cant": "Exponential number of choices.", "anchors": ["src/autopas/iterators/ContainerIterator.h: deleteCurrentParticle", "src/autopas/AutoPasImpl.h: deleteParticle", "src/autopas/containers/linkedCells/LinkedCells.h: deleteParticle"]}
{"id": "C34", "title": "deleteParticle reports reference validity truthfully", "statement": "AutoPas::deleteParticle(particle) removes exactly the given particle and returns true iff the passed reference still denotes a valid stored particle, in every container.", "quantifier": "all containers, cell contents, particle positions", "why_tests_cant": "All contents, both the last and a non-last particle of a cell, owned and halo.", "anchors": ["src/autopas/AutoPasDecl.h: deleteParticle", "src/autopas/containers/directSum/DirectSum.h: deleteParticle", "src/autopas/containers/linkedCells/LinkedCells.h: deleteParticle"]}
{"id": "C35", "title": "Iterator behaviour flags select exactly the documented ownership states", "statement": "A particle is visited under a behaviour iff its ownership state is one of the states the behaviour names.", "quantifier": "all behaviours (all bit combinations) and ownership states", "why_tests_cant": "Finite, but the claim ranges over every bit pattern including the sequential flag.", "anchors": ["src/autopas/options/IteratorBehavior.h: contains", "src/autopas/particles/OwnershipState.h"]}
{"id": "C36", "title": "The tuner ends a phase with the fastest measured configuration", "statement": "When a tuning phase ends, the configuration selected is one with the smallest (smoothed) evidence among all configurations measured in that phase.", "quantifier": "all search spaces, measurements and histories", "why_tests_cant": "Measurements are arbitrary data and histories unbounded.", "anchors": ["src/autopas/tuning/AutoTuner.cpp: tuneConfiguration, addMeasurement", "src/autopas/tuning/searchSpace/EvidenceCollection.cpp: getOptimalConfiguration"]}
{"id": "C37", "title": "Every configuration of the queue is tried", "statement": "With the full-search strategy, during a tuning phase every configuration of the search space is selected and sampled exactly maxSamples times unless it is rejected.", "quantifier": "all search spaces, sample numbers and rejection patterns", "why_tests_cant": "Unbounded histories and data dependent rejections.", "anchors": ["src/autopas/tuning/AutoTuner.cpp: tuneConfiguration, getNextConfig, rejectConfig, addMeasurement"]}
{"id": "C38", "title": "Rejecting configurations never leaves the tuner without a configuration", "statement": "Rejecting a configuration either yields another configuration of the search space or a reported error; it never uses an empty queue. A configuration rejected indefinitely is never proposed again.", "quantifier": "all search spaces and rejection sequences", "why_tests_cant": "Data dependent sequences.", "anchors": ["src/autopas/tuning/AutoTuner.cpp: rejectConfig"]}
{"id": "C39", "title": "The slow-configuration filter never discards the best configuration", "statement": "Filtering slow configurations only removes configurations measured slower than the relative range times the best, and never the best measured configuration itself.", "quantifier": "all evidence collections and queues, relative range >= 1", "why_tests_cant": "Arbitrary measurements.", "anchors": ["src/autopas/tuning/tuningStrategy/SlowConfigFilter.cpp: optimizeSuggestions"]}
{"id": "C40", "title": "MPI tuning distributes the whole search space", "statement": "Round-robin distribution gives every configuration to exactly one rank of the bucket, sizes differ by at most one, and every rank gets at least one configuration.", "quantifier": "all queue lengths and rank counts", "why_tests_cant": "All sizes.", "anchors": ["src/autopas/tuning/tuningStrategy/MPIParallelizedStrategy.cpp: reset"]}
{"id": "C41", "title": "Configuration serialization round-trips", "statement": "Serializing any list of configurations to bytes and back yields the same list.", "quantifier": "all lists of configurations (all enum values fitting a byte, any 64-bit cell size factor)", "why_tests_cant": "All values, all list lengths.", "anchors": ["src/autopas/utils/AutoPasConfigurationCommunicator.cpp: serializeConfiguration(s), deserializeConfiguration(s)"]}
{"id": "C42", "title": "Rule programs compile to equivalent VM code and never overflow the stack", "statement": "Executing the compiled code of a well-formed rule program emits exactly the configuration orders that the rule program's own meaning prescribes, terminates, and never accesses the VM stack out of bounds.", "quantifier": "all rule programs (unbounded nesting) and all input variable values", "why_tests_cant": "Unbounded program syntax.", "anchors": ["src/autopas/tuning/tuningStrategy/ruleBasedTuning/RuleVM.h: execute", "src/autopas/tuning/tuningStrategy/ruleBasedTuning/RuleBasedProgramTree.cpp: generateCode"]}
{"id": "C43", "title": "Configuration equality, ordering and hash agree", "statement": "Configurations that compare equal have equal hashes and neither is less than the other, and equality is transitive.", "quantifier": "all pairs/triples of configurations", "why_tests_cant": "Continuous cell size factor; tests use well separated values.", "anchors": ["src/autopas/tuning/Configuration.cpp: operator==, operator<", "src/autopas/tuning/Configuration.h: ConfigHash"]}
{"id": "C44", "title": "Feature vectors survive encoding", "statement": "One-hot encoding then decoding a feature vector whose options are among the allowed options returns the same feature vector; decoding rejects vectors that are not one-hot.", "quantifier": "all allowed option lists without duplicates and all feature vectors", "why_tests_cant": "All option lists.", "anchors": ["src/autopas/tuning/utils/FeatureVectorEncoder.cpp: oneHotEncode, oneHotDecode, convertToTunable, convertFromTunable"]}
{"id": "C45", "title": "Relevant cell size factors stay in the interval and cover every cell count", "statement": "The computed cell size factors all lie in the given interval and every number of cells per axis reachable with a factor from the interval is represented.", "quantifier": "all intervals, interaction lengths and domain lengths (exact arithmetic)", "why_tests_cant": "Continuous domain.", "anchors": ["src/autopas/tuning/utils/SearchSpaceGenerators.cpp: calculateRelevantCsfs"]}
{"id": "C46", "title": "Exact option names always parse to themselves", "statement": "If the given string (ignoring case) is one of the allowed lower-case names, matchStrings returns that name and reports no ambiguity.", "quantifier": "all lists of distinct names and all needles", "why_tests_cant": "Needleman-Wunsch optimality over all strings.", "anchors": ["src/autopas/utils/StringUtils.h: matchStrings, needlemanWunschScore"]}
{"id": "C47", "title": "Runtime estimate is the weighted mean over one rebuild period", "statement": "The evidence computed from samples equals the mean iteration time over one rebuild interval with one rebuilding iteration and rebuildFrequency-1 others.", "quantifier": "all sample sets and rebuild frequencies", "why_tests_cant": "Arbitrary data.", "anchors": ["src/autopas/tuning/AutoTuner.cpp: estimateRuntimeFromSamples", "src/autopas/tuning/selectors/OptimumSelector.h"]}
{"id": "C48", "title": "No halo particle survives updateContainer", "statement": "After updateContainer, AutoPas stores no halo particle any more and reports zero halo particles.", "quantifier": "all operation histories, both the rebuild and the keep-lists mode", "why_tests_cant": "Unbounded histories; the mode that keeps the lists only looks at particles around the box.", "anchors": ["src/autopas/LogicHandler.h: updateContainer, addHaloParticle", "src/autopas/containers/LeavingParticleCollector.h", "src/autopas/containers/linkedCells/LinkedCells.h: updateContainer, deleteHaloParticles"]}
{"id": "C49", "title": "Options written to a stream are read back", "statement": "Reading an option from a stream that contains the printed name of an option, after white space and with anything following, returns that option.", "quantifier": "all option tables, all options, all streams containing a printed option", "why_tests_cant": "All streams; the interesting case is what follows the name.", "anchors": ["src/autopas/options/Option.h: operator>>, operator<<, parseOptionExact"]}
{"id": "C50", "title": "All MPI ranks agree on the best configuration", "statement": "After a tuning phase distributed over ranks, the configuration chosen by the reduction is the same on every rank and is the local optimum of a rank whose measured time is minimal.", "quantifier": "all numbers of ranks, all local optima and times", "why_tests_cant": "All rank counts and ties.", "anchors": ["src/autopas/utils/AutoPasConfigurationCommunicator.cpp: findGloballyBestConfiguration"]}
{"id": "C51", "title": "A traversal lets every owned particle interact with every neighbour exactly once", "statement": "computeInteractions on the linked-cells container, with any pairwise traversal, data layout and Newton 3 setting, lets every owned particle receive the contribution of every other stored particle within the cutoff exactly once, and never any contribution twice, provided no particle moved further than half the skin since it was sorted in.", "quantifier": "all boxes, cutoffs, skins, cell size factors, particle sets and positions, traversals, layouts, Newton 3 settings, sorting thresholds", "why_tests_cant": "Continuous positions and all container shapes; the end-to-end composition of binning, cell pairs and sorted loops.", "anchors": ["src/autopas/containers/linkedCells/LinkedCells.h: computeInteractions", "src/autopas/baseFunctors/CellFunctor.h", "src/autopas/containers/linkedCells/traversals"]}
{"id": "C52", "title": "computeInteractions is complete after every history", "statement": "After any history of adding, deleting, moving, updating and computing that observes the user's obligations (no move further than half the skin per step, updateContainer after moving), computeInteractions with linked cells gives every owned particle the contribution of every other particle within the cutoff exactly once, whether the particles are in the container or in an insertion buffer; so any accumulated quantity equals the sum over all other particles.", "quantifier": "all histories, particle sets, thread buffers, traversals, data layouts, Newton 3 settings, additive pair quantities", "why_tests_cant": "Unbounded histories combined with continuous positions; particles wander between buffers and cells.", "anchors": ["src/autopas/LogicHandler.h: computeInteractionsPipeline, computeRemainderInteractions, updateContainer, addParticle", "src/autopas/containers/linkedCells/LinkedCells.h"]}
{"id": "C53", "title": "Verlet lists stay complete while they are kept", "statement": "With the VerletLists container, as long as no particle moved further than half the skin since the neighbour lists were built, computeInteractions gives every owned particle the contribution of every other particle within the cutoff exactly once, for both layouts of construction and use; deleted particles do not disturb the others.", "quantifier": "all boxes, cutoffs, skins, particle sets, positions at build and at use, both data layouts of build and use", "why_tests_cant": "Continuous positions; the interplay of skin, sorting cells, index lists and the remainder buffers.", "anchors": ["src/autopas/containers/verletListsCellBased/verletLists/VerletLists.h", "src/autopas/containers/verletListsCellBased/verletLists/VerletListHelpers.h", "src/autopas/containers/verletListsCellBased/verletLists/traversals/VLListIterationTraversal.h"]}
{"id": "C54", "title": "DirectSum lets every owned particle interact with every neighbour exactly once", "statement": "computeInteractions with the DirectSum container gives every owned particle the contribution of every other particle within the cutoff exactly once (container and buffers), and never any contribution twice.", "quantifier": "all boxes, cutoffs, skins, particle sets and positions within half the skin of where they were stored, data layouts, Newton 3 settings, sorting thresholds", "why_tests_cant": "Continuous positions; the sorted loops rely on the direction of each halo cell although particles moved.", "anchors": ["src/autopas/containers/directSum/DirectSum.h", "src/autopas/containers/directSum/traversals/DSSequentialTraversal.h", "src/autopas/baseFunctors/CellFunctor.h"]}
{"id": "C55", "title": "DirectSum keeps the particles inside the box and hands back those outside", "statement": "updateContainer with the DirectSum container returns exactly the owned particles outside the box, keeps exactly the owned particles inside and no others; a halo particle that is added again replaces its stored copy if and only if there is one.", "quantifier": "all particle sets and positions, all boxes at least a skin wide", "why_tests_cant": "All sets of leaving particles (removal swaps elements while iterating); all positions of copies near faces and corners.", "anchors": ["src/autopas/containers/directSum/DirectSum.h: updateContainer, updateHaloParticle, addHaloParticleImpl", "src/autopas/utils/ParticleCellHelpers.h"]}
{"id": "C56", "title": "VerletListsCells: every neighbour once while the lists are kept", "statement": "With the VerletListsCells container and the traversals vlc_c01, vlc_c18, vlc_sliced, vlc_sliced_balanced or vlc_sliced_c02, as long as no particle moved further than half the skin since the lists were built, computeInteractions gives every owned particle the contribution of every other particle within the cutoff exactly once, and no contribution twice; for both data layouts of construction and use and with or without Newton 3.", "quantifier": "all boxes, cutoffs, skins, cell size factors, particle sets, positions at build and at use, traversals, slicings, data layouts, Newton 3 settings", "why_tests_cant": "Continuous positions; all grid shapes and slicings; lists are built by one traversal and used by another.", "anchors": ["src/autopas/containers/verletListsCellBased/verletListsCells/VerletListsCells.h", "src/autopas/containers/verletListsCellBased/verletListsCells/neighborLists/VLCAllCellsNeighborList.h", "src/autopas/containers/verletListsCellBased/verletListsCells/neighborLists/VLCAllCellsGeneratorFunctor.h", "src/autopas/containers/verletListsCellBased/verletListsCells/traversals"]}
{"id": "C57", "title": "VerletListsCells computes interactions without data races", "statement": "While computeInteractions runs on the VerletListsCells container, threads that run concurrently never update the same particle: not in the same colour (vlc_c01, vlc_c18, vlc_sliced_c02), and for the lock based vlc_sliced and vlc_sliced_balanced not in any reachable state of the locks.", "quantifier": "all grids, particle sets, slicings, layouts, Newton 3 settings and schedules", "why_tests_cant": "Races depend on the schedule and on which particles happen to be neighbours.", "anchors": ["src/autopas/containers/verletListsCellBased/verletListsCells/traversals/VLCC18Traversal.h", "src/autopas/containers/verletListsCellBased/verletListsCells/traversals/VLCSlicedTraversal.h", "src/autopas/containers/cellTraversals/SlicedBasedTraversal.h"]}
{"id": "C58", "title": "vlc_c08 uses every neighbour exactly once", "statement": "With the container VerletListsCells and the traversal vlc_c08, whose lists are built per base cell for the eight cells of its block instead of per owning cell, every owned particle receives the contribution of every other particle closer than the cutoff exactly once as long as the lists may be kept (particles moved by at most half the skin), no contribution is received twice, for AoS and SoA and with and without Newton 3; base cells processed concurrently never update the same particle.", "quantifier": "all boxes, cutoffs, skins, cell size factors for which the traversal is applicable, particle sets, movements within half the skin, both data layouts, Newton 3 on and off, all estimates of list numbers", "why_tests_cant": "The lists depend on the particle set and the geometry of the cell grid; which base cell a pair belongs to must be unique for all of them, and races depend on the schedule.", "anchors": ["src/autopas/containers/verletListsCellBased/verletListsCells/VerletListsCells.h:rebuildNeighborListsC08", "src/autopas/containers/verletListsCellBased/verletListsCells/VerletListsCellsHelpers.cpp:buildC08BaseStep", "src/autopas/containers/verletListsCellBased/verletListsCells/traversals/VLCC08Traversal.h:traverseParticles"]}
{"id": "C59", "title": "Pairwise Verlet lists use every neighbour exactly once", "statement": "The container PairwiseVerletLists (one list per particle and neighbouring cell, in a number of slots fixed before the lists are filled) never accesses a slot out of range while building, and with vlp_c01, vlp_c18, vlp_sliced, vlp_sliced_balanced, vlp_sliced_c02 and vlp_c08 every owned particle receives the contribution of every other particle closer than the cutoff exactly once as long as the lists may be kept, no contribution twice, for AoS and SoA and with and without Newton 3; work executed concurrently never updates the same particle.", "quantifier": "all boxes, cutoffs, skins, cell size factors of at least one, particle sets, movements within half the skin, both data layouts, Newton 3 on and off, all traversals of the container, all schedules", "why_tests_cant": "Slots are assigned in the order in which neighbouring cells are met, which depends on the particle set; a missing slot is undefined behaviour, and races depend on the schedule.", "anchors": ["src/autopas/containers/verletListsCellBased/verletListsCells/neighborLists/VLCCellPairNeighborList.h:buildAoSNeighborList", "src/autopas/containers/verletListsCellBased/verletListsCells/neighborLists/VLCCellPairGeneratorFunctor.h:AoSFunctor", "src/autopas/containers/verletListsCellBased/verletListsCells/traversals/VLCCellPairC08CellHandler.h:processCellListsC08", "src/autopas/containers/verletListsCellBased/verletListsCells/traversals/VLCCellPairTraversalInterface.h:processCellLists", "src/autopas/containers/verletListsCellBased/verletListsCells/traversals/VLCCellPairC08Traversal.h:traverseParticles"]}
{"id": "C60", "title": "Verlet lists kept as they were built use every neighbour exactly once", "statement": "The container VarVerletLists keeps its lists per colour and thread of the traversal that built them; whichever base cells the threads processed while building, no list out of range is accessed, and with vvl_as_built every owned particle receives the contribution of every other particle closer than the cutoff exactly once as long as the lists may be kept, no contribution twice, for AoS and SoA and with and without Newton 3; lists processed concurrently never update the same particle.", "quantifier": "all boxes, cutoffs, skins, cell size factors of at least one, particle sets, numbers of threads, all distributions of base cells to threads during the build, all iteration orders of the hash maps, movements within half the skin, both data layouts, Newton 3 on and off", "why_tests_cant": "Which pairs end up in which thread's list depends on the dynamic schedule of the build; correctness must hold for every distribution.", "anchors": ["src/autopas/containers/verletListsCellBased/varVerletLists/neighborLists/asBuild/VerletNeighborListAsBuild.h:buildAoSNeighborList", "src/autopas/containers/verletListsCellBased/varVerletLists/neighborLists/asBuild/AsBuildPairGeneratorFunctor.h:SoAFunctorPair", "src/autopas/containers/verletListsCellBased/varVerletLists/traversals/VVLAsBuildTraversal.h:traverseParticles"]}
{"id": "C61", "title": "The reported number of neighbour pairs is that of the lists", "statement": "VarVerletLists::getNumberOfNeighborPairs returns the number of neighbour pairs in the lists.", "quantifier": "all particle sets, boxes and distributions of the build over threads", "why_tests_cant": "The unit tests only have particles with a single neighbour, for which the returned number happens to be right.", "anchors": ["src/autopas/containers/verletListsCellBased/varVerletLists/VarVerletLists.h:getNumberOfNeighborPairs", "src/autopas/containers/verletListsCellBased/varVerletLists/neighborLists/asBuild/VerletNeighborListAsBuild.h:getNumberOfNeighborPairs"]}
{"id": "C62", "title": "The buffer for neighbour lists always hands out a fresh list", "statement": "Every call of NeighborListsBuffer::getNewNeighborList returns the index of an existing, empty list that is different from all lists handed out since the last clear().", "quantifier": "all sizes, growth factors and sequences of requests, clear() and reserveNeighborLists()", "why_tests_cant": "The buffer grows by a factor when it is full; whether the check for full is in time depends on the number of requests, of which tests make only a few.", "anchors": ["src/autopas/containers/NeighborListsBuffer.h:getNewNeighborList", "src/autopas/containers/verletClusterLists/VerletClusterListsRebuilder.h:rebuildTowersAndClusters"]}
{"id": "C63", "title": "Rebuilding the towers of VerletClusterLists keeps every particle", "statement": "After the towers of VerletClusterLists are rebuilt, every particle that was stored or added, is not deleted and lies in the box or its halo is stored as often as before, in the tower of its position; nothing is duplicated and deleted particles are gone.", "quantifier": "all boxes, interaction lengths, cluster sizes, particle sets, earlier grids with more or fewer towers, movements since, and orders in which threads insert", "why_tests_cant": "Which particles are resorted depends on how the grid changes with the number of particles; losing one at a boundary between grids is a matter of particular positions and counts.", "anchors": ["src/autopas/containers/verletClusterLists/VerletClusterListsRebuilder.h:rebuildTowersAndClusters", "src/autopas/containers/verletClusterLists/VerletClusterListsRebuilder.h:sortParticlesIntoTowers", "src/autopas/containers/verletClusterLists/ClusterTowerBlock2D.h:estimateOptimalGridSideLength", "src/autopas/containers/verletClusterLists/ClusterTowerBlock2D.h:getTowerIndex2DAtPosition"]}
{"id": "C64", "title": "Iterating VerletClusterLists visits every particle exactly once", "statement": "Parallel iteration over VerletClusterLists, with or without a region, visits every particle with a requested ownership state (inside of the region) exactly once, in exactly one thread, in the towers and among the particles not yet sorted in.", "quantifier": "all boxes, interaction lengths, particle sets, numbers of threads, regions and iterator behaviours", "why_tests_cant": "Whether the range of owned towers covers the box depends on box, density and interaction length in combination.", "anchors": ["src/autopas/containers/verletClusterLists/VerletClusterLists.h:getParticleImpl", "src/autopas/containers/verletClusterLists/VerletClusterLists.h:advanceIteratorIndices", "src/autopas/containers/verletClusterLists/ClusterTowerBlock2D.h:getFirstOwnedTowerIndex", "src/autopas/containers/verletClusterLists/ClusterTowerBlock2D.h:getLastOwnedTowerIndex"]}
{"id": "C65", "title": "VerletClusterLists computes every interaction of every owned particle exactly once", "statement": "After the neighbour lists of VerletClusterLists are built, computeInteractions with any of its traversals lets every owned particle receive every other particle within the cutoff exactly once, as long as nothing has moved further than half the skin; particles in the buffers included.", "quantifier": "all boxes, cutoffs, skins, cluster sizes, particle sets, earlier grids, orders of insertion, movements since the rebuild, traversals, with and without Newton 3", "why_tests_cant": "Which pair of clusters is on a list depends on tower sizes, which depend on the density; a lost pair needs a particular combination of box, density and cutoff.", "anchors": ["src/autopas/containers/verletClusterLists/VerletClusterListsRebuilder.h:updateNeighborLists", "src/autopas/containers/verletClusterLists/VerletClusterListsRebuilder.h:calculateNeighborsBetweenTowers", "src/autopas/containers/verletClusterLists/traversals/VCLClusterFunctor.h:processCluster", "src/autopas/containers/verletClusterLists/traversals/VCLC06Traversal.h:processColorCell"]}
{"id": "C66", "title": "Deleting particles between rebuilds does not change the interactions of the others in VerletClusterLists", "statement": "If particles are deleted between two rebuilds of VerletClusterLists, the traversals still let every remaining owned particle receive every other remaining particle within the cutoff exactly once.", "quantifier": "all boxes, particle sets, deletions since the rebuild and traversals", "why_tests_cant": "The traversal is made for a grid estimated from the current number of particles, the clusters are stored in the grid of the last rebuild; the two differ only for particular numbers of particles.", "anchors": ["src/autopas/containers/verletClusterLists/VerletClusterLists.h:getTraversalSelectorInfo", "src/autopas/containers/verletClusterLists/traversals/VCLSlicedC02Traversal.h", "src/autopas/containers/verletClusterLists/traversals/VCLSlicedTraversal.h", "src/autopas/LogicHandler.h:computeInteractionsPipeline"]}
{"id": "C67", "title": "The traversals of VerletClusterLists never update a particle from two threads at the same time", "statement": "In no schedule of a traversal of VerletClusterLists do two tasks that may run at the same time update the same particle.", "quantifier": "all boxes, densities, interaction lengths, particle sets, traversals, schedules and lock orders", "why_tests_cant": "A race shows only if the two tasks overlap in time, and only for particular tower sizes.", "anchors": ["src/autopas/containers/verletClusterLists/traversals/VCLC06Traversal.h:processColorCell", "src/autopas/containers/verletClusterLists/traversals/VCLSlicedC02Traversal.h", "src/autopas/containers/verletClusterLists/traversals/VCLSlicedTraversal.h", "src/autopas/containers/verletClusterLists/traversals/VCLC01BalancedTraversal.h:traverseParticles"]}
{"id": "C68", "title": "The balanced thread partition of VerletClusterLists covers every owned cluster exactly once", "statement": "The ranges of clusters assigned to the threads by VerletClusterLists, as processed by the balanced c01 traversal, contain every owned cluster exactly once, for every number of threads, and no range is left unfinished.", "quantifier": "all numbers of towers, clusters, threads, all neighbour list lengths and all old ranges", "why_tests_cant": "The partition depends on the distribution of list lengths over towers, empty towers and the number of threads in combination.", "anchors": ["src/autopas/containers/verletClusterLists/VerletClusterLists.h:calculateClusterThreadPartition", "src/autopas/containers/verletClusterLists/VerletClusterLists.h:fillClusterRanges", "src/autopas/containers/verletClusterLists/traversals/VCLC01BalancedTraversal.h:traverseParticles"]}
{"id": "C69", "title": "The octree stores exactly the particles given to it and hands back exactly those that left", "statement": "After any history of insertions, changes through references, updateContainer, deletions of halo particles and deletions through iterators, the octree container holds exactly the particles inserted and not deleted, updateContainer returns exactly the non-dummy owned particles outside the box, and size() is the number of stored particles.", "quantifier": "all boxes, interaction lengths, histories of operations and particle positions", "why_tests_cant": "Leaves split depending on how many particles share a region; a loss needs a particular order of movements and insertions that makes a leaf split at the wrong time.", "anchors": ["src/autopas/containers/octree/Octree.h:updateContainer", "src/autopas/containers/octree/Octree.h:addParticleImpl", "src/autopas/containers/octree/OctreeLeafNode.h:insert", "src/autopas/containers/octree/OctreeInnerNode.h:insert"]}
{"id": "C70", "title": "The octree computes every interaction of every owned particle exactly once", "statement": "With every traversal of the octree, with and without Newton 3, every owned particle receives every other particle within the cutoff exactly once, as long as nothing has moved further than half the skin since it was sorted in; nothing is ever received twice.", "quantifier": "all boxes, cutoffs, skins, trees, particle sets, orders of leaves, both traversals, with and without Newton 3", "why_tests_cant": "Neighbours of a leaf are found by walking through faces, edges and vertices to leaves of other depths; a missing neighbour needs a particular combination of depths.", "anchors": ["src/autopas/containers/octree/OctreeNodeInterface.h:getNeighborLeaves", "src/autopas/containers/octree/OctreeNodeInterface.h:findPathsBetween", "src/autopas/containers/octree/OctreeDirection.h", "src/autopas/containers/octree/traversals/OTC18Traversal.h:traverseParticlePairs", "src/autopas/containers/octree/traversals/OTC01Traversal.h:traverseParticlePairs"]}
{"id": "C71", "title": "Deleting one particle from the octree removes that particle and nothing else", "statement": "Deleting a particle of the octree, through an iterator or through a reference to it, removes this particle, keeps every other one where it belongs, lowers size() by one, and is defined whenever the particle is stored.", "quantifier": "all trees, particles, positions since sorting in", "why_tests_cant": "The reference version looks the particle up by its current position, which may have moved over a leaf boundary.", "anchors": ["src/autopas/containers/octree/Octree.h:deleteParticle", "src/autopas/containers/octree/OctreeLeafNode.h:deleteParticle", "src/autopas/containers/octree/OctreeInnerNode.h:deleteParticle", "src/autopas/containers/octree/OctreeNodeWrapper.h:deleteParticle"]}
{"id": "C72", "title": "Iterating the octree visits every matching particle exactly once", "statement": "For any number of threads, the loops over the octree's iterators, with or without a region, end, never touch anything undefined, and together visit each stored particle that matches the behaviour (and lies in the region) exactly once. A loop that overwrites or deletes what it visits applies exactly what its body asked for.", "quantifier": "all boxes, trees of depth at most 18, contents of the additional vectors, behaviours, numbers of threads, regions and loop bodies", "why_tests_cant": "The iterator encodes the way to a leaf as a decimal number and walks up and down the tree; which nodes it skips depends on the depths of all leaves, on empty leaves and on the region.", "anchors": ["src/autopas/containers/octree/Octree.h:getParticle", "src/autopas/containers/octree/Octree.h:advanceIteratorIndices", "src/autopas/containers/octree/Octree.h:getLeafCellByIndex", "src/autopas/containers/octree/Octree.h:cellIsRelevant", "src/autopas/iterators/ContainerIterator.h"]}
{"id": "C73", "title": "The Lennard-Jones functor computes the textbook force and energy in every data layout", "statement": "Whichever kernel of LJFunctor is used (a pair of particles, a cell, two cells, a neighbour list), the force added to a particle is the sum of the textbook Lennard-Jones forces of the other particles of the call that exist and are within the cutoff, the energy and virial sums grow by the textbook values once per owned particle of a pair, and with Newton 3 the partner gets the opposite force. Deleted particles have no influence.", "quantifier": "all positions, types, parameters, ownership states, numbers of particles, neighbour lists and vector lengths; Newton 3 on and off", "why_tests_cant": "The SoA kernels replace branches by masks, accumulate in registers, and split neighbour lists into vectors and a remainder: agreement of layouts on sampled positions says nothing about masked lanes, list lengths modulo the vector size or coinciding positions.", "anchors": ["applicationLibrary/molecularDynamics/molecularDynamicsLibrary/LJFunctor.h:AoSFunctor", "applicationLibrary/molecularDynamics/molecularDynamicsLibrary/LJFunctor.h:SoAFunctorSingle", "applicationLibrary/molecularDynamics/molecularDynamicsLibrary/LJFunctor.h:SoAFunctorPairImpl", "applicationLibrary/molecularDynamics/molecularDynamicsLibrary/LJFunctor.h:SoAFunctorVerletImpl", "src/autopas/baseFunctors/Functor.h:SoALoader"]}
{"id": "C74", "title": "Lennard-Jones forces, energy and virial of the whole system are right after every history", "statement": "After any history of operations that observes the user's obligations, computeInteractions with LJFunctor adds to every owned particle the sum of the textbook forces of all other particles, wherever they are stored; getPotentialEnergy() is half the sum of the pair energies over all owned particles and their neighbours, getVirial() likewise; without halo particles all forces sum up to zero. (No two stored particles at exactly the same position or exactly at the cutoff distance.)", "quantifier": "all histories, linked-cells traversals, data layouts, Newton 3 settings, sorting thresholds, vector lengths, numbers of threads and assignments of the kernel calls to threads and orders", "why_tests_cant": "The result is a sum over calls spread over traversal, remainder traversal, layouts and per-thread accumulators; tests compare a few configurations on a few systems within a tolerance.", "anchors": ["src/autopas/LogicHandler.h:computeInteractions", "applicationLibrary/molecularDynamics/molecularDynamicsLibrary/LJFunctor.h:initTraversal", "applicationLibrary/molecularDynamics/molecularDynamicsLibrary/LJFunctor.h:endTraversal", "applicationLibrary/molecularDynamics/molecularDynamicsLibrary/LJFunctor.h:getPotentialEnergy", "src/autopas/baseFunctors/CellFunctor.h"]}
{"id": "C75", "title": "Lennard-Jones forces are the negative gradient of the reported potential energy", "statement": "Where the functor computes a force for two particles at different positions within the cutoff, the force on the first particle is minus the gradient, with respect to its position, of the pair energy the functor adds to its energy sum.", "quantifier": "all positions, parameters, types and shifts over the real numbers", "why_tests_cant": "That force and energy expressions belong together is an identity of real functions; numerical differentiation at sample points cannot establish it.", "anchors": ["applicationLibrary/molecularDynamics/molecularDynamicsLibrary/LJFunctor.h:AoSFunctor", "applicationLibrary/molecularDynamics/molecularDynamicsLibrary/LJFunctor.h:endTraversal"]}
{"id": "C76", "title": "The particle properties library returns what was registered, mixed by the Lorentz-Berthelot rules", "statement": "After any history of calls, masses and parameters are the last ones given; calls with unregistered or non-consecutive ids throw and change nothing; after calculateMixingCoefficients the looked-up coefficients of two types are 24*sqrt(eps_i*eps_j), ((sigma_i+sigma_j)/2)^2 and six times the shift that makes the potential zero at the cutoff, and cbrt(nu_i*nu_j*nu_k) for three types, independent of the order of the types; a molecule type has the mass of its sites and its largest sigma.", "quantifier": "all histories of registrations (including rejected ones) and all parameters", "why_tests_cant": "The tables are flat vectors indexed with the current number of types and filled at another time than they are read; tests fix one order of registrations.", "anchors": ["applicationLibrary/molecularDynamics/molecularDynamicsLibrary/ParticlePropertiesLibrary.h:addSiteType", "applicationLibrary/molecularDynamics/molecularDynamicsLibrary/ParticlePropertiesLibrary.h:addLJParametersToSite", "applicationLibrary/molecularDynamics/molecularDynamicsLibrary/ParticlePropertiesLibrary.h:addATParametersToSite", "applicationLibrary/molecularDynamics/molecularDynamicsLibrary/ParticlePropertiesLibrary.h:addMolType", "applicationLibrary/molecularDynamics/molecularDynamicsLibrary/ParticlePropertiesLibrary.h:calculateMixingCoefficients", "applicationLibrary/molecularDynamics/molecularDynamicsLibrary/ParticlePropertiesLibrary.h:getLJMixingData", "applicationLibrary/molecularDynamics/molecularDynamicsLibrary/ParticlePropertiesLibrary.h:getMixingNu", "applicationLibrary/molecularDynamics/molecularDynamicsLibrary/ParticlePropertiesLibrary.h:calcShift6"]}
{"id": "C77", "title": "Axilrod-Teller forces are the negative gradient of the Axilrod-Teller energy", "statement": "For three particles at different positions with all distances within the cutoff the forces the functor adds are minus the gradients, with respect to the three positions, of nu*(1+3 cos cos cos)/(r r r)^3, and they sum to zero; the energy sum grows by that energy once for every owned particle that gets a force (after the final division by three per particle); if a distance exceeds the cutoff or a particle is deleted nothing changes; one call with Newton 3 does the same as three calls without.", "quantifier": "all positions, types, coefficients and ownership states over the real numbers", "why_tests_cant": "The code uses an expanded expression in scalar products with neither distances nor angles; that it is the gradient is an identity of real functions in nine variables.", "anchors": ["applicationLibrary/molecularDynamics/molecularDynamicsLibrary/AxilrodTellerFunctor.h:AoSFunctor", "applicationLibrary/molecularDynamics/molecularDynamicsLibrary/AxilrodTellerFunctor.h:initTraversal", "applicationLibrary/molecularDynamics/molecularDynamicsLibrary/AxilrodTellerFunctor.h:endTraversal", "applicationLibrary/molecularDynamics/molecularDynamicsLibrary/AxilrodTellerFunctor.h:getNumFLOPs"]}
{"id": "C78", "title": "Three-body interactions are complete after every history", "statement": "After any sequence of API calls, when interactions are computed with a three-body functor, every owned particle receives the contribution of every two other particles (owned or halo, in the container or in an insertion buffer) exactly once if the three are pairwise closer than the cutoff; no contribution is received twice and only different particles take part; so the accumulated value is the sum over all such pairs. Different base cells of the linked cells traversal never change the same particle.", "quantifier": "all histories of additions, movements, updates, rebuilds and computations; all particle positions, cell sizes, skins, buffers, with and without Newton 3 where applicable", "why_tests_cant": "The pairs of neighbour cells are precomputed from cell distances and the triple is split over up to three cells or buffers in six ways; a missed or doubled combination only shows for special positions.", "anchors": ["src/autopas/containers/linkedCells/traversals/LCC01Traversal.h:processBaseCell", "src/autopas/containers/linkedCells/traversals/LCC01Traversal.h:computeOffsets", "src/autopas/containers/directSum/traversals/DSSequentialTraversal.h:traverseParticleTriplets", "src/autopas/LogicHandler.h:computeRemainderInteractions3B", "src/autopas/baseFunctors/CellFunctor3B.h:CellFunctor3B"]}
{"id": "C79", "title": "computeInteractions with the Axilrod-Teller functor yields the physics", "statement": "After any sequence of API calls, computing interactions with the Axilrod-Teller functor adds to every owned particle minus the gradient of its Axilrod-Teller energy with all pairs of other particles within the cutoff; the reported potential energy is the sum over all sets of three particles of a third of the energy per owned particle in the set; without halo particles the forces sum to zero. The number of threads and the distribution of the work do not matter.", "quantifier": "all histories, all positions in general position, all symmetric coefficients, all thread counts and schedules", "why_tests_cant": "Forces and energies depend on which of the many splittings of a triple over cells and buffers is used; tests compare a few configurations with each other to a tolerance.", "anchors": ["applicationLibrary/molecularDynamics/molecularDynamicsLibrary/AxilrodTellerFunctor.h:AoSFunctor", "applicationLibrary/molecularDynamics/molecularDynamicsLibrary/AxilrodTellerFunctor.h:endTraversal", "src/autopas/LogicHandler.h:computeInteractions", "src/autopas/containers/linkedCells/traversals/LCC01Traversal.h:processBaseCell"]}
{"id": "C80", "title": "lc_c01_combined_SoA is complete for every assignment of rows to threads", "statement": "With the traversal lc_c01_combined_SoA (structure of arrays, no Newton 3), after any sequence of API calls every owned particle receives the contribution of every other particle within the cutoff exactly once and nothing twice, whichever thread processes which rows of cells in which order and whatever its buffers contain from earlier traversals.", "quantifier": "all histories, positions, cell sizes and overlaps, all assignments of rows to threads, all initial buffer contents", "why_tests_cant": "Each thread keeps a ring of buffers that is shrunk, extended and rotated while it moves along x; whether a buffer holds exactly the particles of the right cells depends on the order of the offset table, the overlap and all cells passed before.", "anchors": ["src/autopas/containers/linkedCells/traversals/LCC01Traversal.h:processBaseCellPairwise", "src/autopas/containers/linkedCells/traversals/LCC01Traversal.h:computePairwiseOffsets", "src/autopas/containers/cellTraversals/ColorBasedTraversal.h:colorTraversal", "src/autopas/utils/SoA.h:resizeArrays"]}
{"id": "C81", "title": "lc_c04_combined_SoA computes the right forces, keeps the particles and is free of races", "statement": "With the traversal lc_c04_combined_SoA, after any sequence of API calls the buffer of every cell holds its own particles in their order, every owned particle has received the sum of the contributions of all other particles within the cutoff, with and without Newton 3, in whatever order the rows of cells are processed and whatever the combined buffers of the threads contain from before; rows that may run at the same time read and write different cells.", "quantifier": "all histories, positions, box sizes with overlap one, all orders of rows, all initial buffer contents, all additive contributions", "why_tests_cant": "Cell buffers are copied into rotating combined buffers, worked on through views, cut and written back by moving offsets; an error shows only for particular distributions of particles over cells, rows and threads.", "anchors": ["src/autopas/containers/linkedCells/traversals/LCC04CombinedSoATraversal.h:LCC04CombinedSoATraversal", "src/autopas/containers/linkedCells/traversals/LCC04SoACellHandler.h:processBaseCell", "src/autopas/containers/linkedCells/traversals/LCC04SoACellHandler.h:writeCellIntoBuffer", "src/autopas/containers/linkedCells/traversals/LCC04SoACellHandler.h:writeBufferIntoCell", "src/autopas/containers/linkedCells/traversals/LCC04SoACellHandler.h:setupIntervals", "src/autopas/containers/cellTraversals/C04BasedTraversal.h:c04Traversal"]}
{"id": "C82", "title": "The container linkedCellsReferences keeps the particles it is given", "statement": "With the container linkedCellsReferences, whatever sequence of additions, halo additions and updates, moves, deletions, deleteAllParticles and updateContainer calls is carried out: no call throws, no dangling reference is followed, the owned particles that can be reached are exactly those added and neither deleted nor handed back, updateContainer hands back exactly the owned particles outside the box, and a following force calculation gives every owned particle the contribution of every other particle within the cutoff exactly once.", "quantifier": "all histories of operations, all particles, all growth policies of the vector, all thread schedules of the re-insertion, all box sizes", "why_tests_cant": "The particles live in one vector that reallocates as it grows; whether pointers dangle or re-sorting throws depends on how many particles were added before and where they have moved in the meantime.", "anchors": ["src/autopas/containers/linkedCells/LinkedCellsReferences.h:addParticleImpl", "src/autopas/containers/linkedCells/LinkedCellsReferences.h:updateDirtyParticleReferences", "src/autopas/containers/linkedCells/LinkedCellsReferences.h:updateContainer", "src/autopas/containers/linkedCells/ParticleVector.h:ParticleVector", "src/autopas/cells/ReferenceParticleCell.h:ReferenceParticleCell", "src/autopas/containers/CellBasedParticleContainer.h:deleteAllParticles"]}
{"id": "C83", "title": "The ranks of md-flexible divide the simulation box among themselves", "statement": "For every number of ranks and every choice of dimensions that may be divided, md-flexible finds a decomposition with exactly one domain per rank that divides only those dimensions; rank numbers and domain coordinates correspond one to one; and every position of the simulation box lies in the local box of exactly one rank.", "quantifier": "all numbers of ranks, all choices of divided dimensions, all boxes, all positions", "why_tests_cant": "Depends on the prime factorisation of the number of ranks and on every position up to domain boundaries.", "anchors": ["examples/md-flexible/src/domainDecomposition/DomainTools.cpp:generateDecomposition", "examples/md-flexible/src/domainDecomposition/DomainTools.cpp:convertIdToIndex", "examples/md-flexible/src/domainDecomposition/DomainTools.cpp:convertIndexToId", "examples/md-flexible/src/domainDecomposition/RegularGridDecomposition.cpp:initializeLocalBox"]}
{"id": "C84", "title": "The halo exchange of md-flexible delivers every periodic image near a rank exactly once", "statement": "After exchangeHaloParticles every rank has as halo particles exactly the images (periodic images in periodic dimensions, no others) of all ranks' particles that lie outside its local box but within cutoff plus skin of it, each exactly once; hence for every owned particle every partner within cutoff plus skin is present.", "quantifier": "all numbers and layouts of ranks, all boundary types, all local boxes tiling the global box, all particle distributions", "why_tests_cant": "Edge and corner images arrive through chains of forwarded messages over three rounds; which are lost or duplicated depends on the layout of ranks, the widths of all local boxes and the positions of all particles.", "anchors": ["examples/md-flexible/src/domainDecomposition/RegularGridDecomposition.cpp:exchangeHaloParticles", "examples/md-flexible/src/domainDecomposition/RegularGridDecomposition.cpp:sendAndReceiveParticlesLeftAndRight", "examples/md-flexible/src/domainDecomposition/RegularGridDecomposition.cpp:collectHaloParticlesForLeftNeighbor", "examples/md-flexible/src/domainDecomposition/RegularGridDecomposition.cpp:collectHaloParticlesForRightNeighbor"]}
{"id": "C85", "title": "No particle is lost when it moves to another rank of md-flexible", "statement": "After exchangeMigratingParticles every particle that has left the local box of its rank (not further than the neighbouring domain) is stored by exactly one rank, the one whose local box contains its position, put back into the simulation box across periodic boundaries also when rounding would carry it onto the end of the box; no rank throws; and the outcome does not depend on the number of ranks.", "quantifier": "all layouts of ranks, all local boxes tiling the simulation box, all sets of emigrants, all roundings of the wrapped coordinate", "why_tests_cant": "A particle leaving over a corner is handed on three times; whether it arrives depends on the boxes of all ranks it passes and on rounding at the ends of the box.", "anchors": ["examples/md-flexible/src/domainDecomposition/RegularGridDecomposition.cpp:exchangeMigratingParticles", "examples/md-flexible/src/domainDecomposition/RegularGridDecomposition.cpp:categorizeParticlesIntoLeftAndRightNeighbor", "examples/md-flexible/src/domainDecomposition/RegularGridDecomposition.cpp:sendAndReceiveParticlesLeftAndRight"]}
{"id": "C86", "title": "Load balancing keeps the local boxes a tiling of the simulation box", "statement": "Whatever loads the ranks report, after load balancing with inverted pressure the local boxes of all ranks still tile the simulation box without gap or overlap, no domain is narrower than twice cutoff plus skin, and no particle ends up further away than in a neighbouring domain.", "quantifier": "all layouts of ranks, all loads, all local boxes before the balancing, any number of balancing steps", "why_tests_cant": "Every rank computes its two walls per dimension on its own from what its neighbours send; a gap or overlap shows up only for particular loads and widths.", "anchors": ["examples/md-flexible/src/domainDecomposition/RegularGridDecomposition.cpp:balanceWithInvertedPressureLoadBalancer", "examples/md-flexible/src/domainDecomposition/DomainTools.cpp:balanceAdjacentDomains"]}
{"id": "C87", "title": "A parallel run of md-flexible keeps track of all particles", "statement": "In every run of md-flexible on any number of ranks, of any length, with load balancing at any of the steps, however the particles move (by less than the minimum width of a domain per step): no rank throws, the particles present are exactly those at the start, each stored by exactly one rank, the one whose local box it is in, and after the halo exchange of each step every rank has every image within cutoff plus skin of its particles, exactly once.", "quantifier": "all numbers of ranks, all numbers of steps, all movements, all loads and load balancing schedules", "why_tests_cant": "Errors of single steps accumulate over a run; the state is distributed over all ranks and no single test sees all combinations of movement, balancing and layout.", "anchors": ["examples/md-flexible/src/Simulation.cpp:run", "examples/md-flexible/src/domainDecomposition/RegularGridDecomposition.cpp:exchangeMigratingParticles", "examples/md-flexible/src/domainDecomposition/RegularGridDecomposition.cpp:exchangeHaloParticles", "examples/md-flexible/src/domainDecomposition/RegularGridDecomposition.cpp:update"]}
{"id": "C88", "title": "The time integration of md-flexible is the velocity Verlet method", "statement": "The positions and velocities after any number of time steps of md-flexible are those of the velocity Verlet method for the sum of interaction, wall and global force, whatever the order in which the threads process the particles. Hence the total momentum changes by exactly the global force times the time, running backwards (with reversed velocities) leads back to the start, and motion under a constant force is exact. If no exception about fast particles is thrown, no particle moves by half the skin per time step or more in a step, so particles that are too far apart when the neighbour lists are built do not interact before they are rebuilt.", "quantifier": "all numbers of particles, all masses, force laws, starting positions and velocities, all numbers of steps, all orders of the particles in each loop", "why_tests_cant": "The statements are about trajectories of arbitrary length for arbitrary forces and thread schedules; a test compares single steps with given numbers.", "anchors": ["examples/md-flexible/src/TimeDiscretization.cpp:calculatePositionsAndResetForces", "examples/md-flexible/src/TimeDiscretization.cpp:calculateVelocities", "examples/md-flexible/src/Simulation.cpp:run"]}
{"id": "C89", "title": "Pausing the simulation in tuning phases does not change the trajectory", "statement": "With pauseSimulationDuringTuning the particles do not move while the tuner tries configurations, and however many tuning phases there are and however long they are, positions and velocities after the run are those of the velocity Verlet method with one step for every iteration that is not a tuning iteration.", "quantifier": "all sequences of tuning and non-tuning iterations, all force laws, all starting states, all orders of the particles", "why_tests_cant": "Forces pile up in the particles for as long as the tuning phase takes; whether they leave a trace depends on where phases begin and end.", "anchors": ["examples/md-flexible/src/Simulation.cpp:updateSimulationPauseState", "examples/md-flexible/src/Simulation.cpp:run"]}
{"id": "C90", "title": "The thermostat brings the temperature to the target", "statement": "One application of the thermostat changes the temperature of every type of particles towards the target temperature, by exactly deltaTemperature or the remaining difference if that is smaller, by multiplying all velocities of the type by the same factor; applied often enough it reaches the target and stays there. The outcome does not depend on how the particles are distributed over ranks and threads.", "quantifier": "all particles, masses, velocities and numbers of types, all distributions over ranks and threads, all targets and steps, any number of applications", "why_tests_cant": "The temperature is a sum over all particles on all ranks and threads; a test sees only a few distributions and numbers.", "anchors": ["examples/md-flexible/src/Thermostat.h:apply", "examples/md-flexible/src/Thermostat.h:calcTemperatureComponent", "examples/md-flexible/src/Thermostat.h:calcTemperature"]}
{"id": "C91", "title": "Reflective boundaries push particles back into the box", "statement": "On every rank, every owned particle gets from every reflective wall closer than 2^(1/6) sigma/2 exactly the Lennard-Jones force of its mirror image behind the wall, a force perpendicular to the wall and pointing away from it, and no force from other walls, whichever rank it is on.", "quantifier": "all layouts of ranks, all local boxes tiling the simulation box, all boundary types, all particle types, all positions in the box", "why_tests_cant": "Which walls a rank handles depends on its box and on a comparison with tolerance; particles near edges and corners meet two or three walls.", "anchors": ["examples/md-flexible/src/domainDecomposition/RegularGridDecomposition.cpp:reflectParticlesAtBoundaries"]}
{"id": "C92", "title": "Switching the container keeps all particles", "statement": "When the tuner selects another container, or the same one with other parameters, the new container holds exactly the owned and halo particles of the old one, each once and unchanged, and no exception is thrown; this holds for every pair of container types, every order in which the particles are copied, and any number of switches in a run.", "quantifier": "all pairs of the nine container types, all parameters the containers accept, all contents, all orders of the copy loop, all sequences of switches, all histories of adding, deleting, moving and updating before a switch", "why_tests_cant": "There are 81 pairs of containers with arbitrary contents and parameters; whether a particle is accepted depends on where it has moved to since the last update, and trees split depending on all particles in them.", "anchors": ["src/autopas/tuning/selectors/ContainerSelector.h:generateContainer", "src/autopas/tuning/selectors/ContainerSelector.h:selectContainer", "src/autopas/tuning/selectors/ContainerSelectorInfo.h:operator==", "src/autopas/containers/ParticleContainerInterface.h:addParticle", "src/autopas/containers/ParticleContainerInterface.h:addHaloParticle"]}
{"id": "C93", "title": "Quaternions rotate molecules", "statement": "A unit quaternion turns the sites of a molecule by a proper rotation: lengths, angles and handedness are kept, so distances between sites are those of the molecule type; rotating backwards undoes it, the product of quaternions is the composition of rotations, (cos, sin\u00b7axis) turns by twice the angle about the axis, and mirroring a quaternion gives the rotation seen in the mirror.", "quantifier": "all quaternions, all vectors, all lists of sites, all axes and angles, all mirror dimensions including invalid ones", "why_tests_cant": "The properties are polynomial identities in up to eleven real variables; a sign error in one of nine matrix entries can vanish for the axis aligned examples used in tests.", "anchors": ["src/autopas/utils/Quaternion.h:rotateVectorOfPositions", "src/autopas/utils/Quaternion.h:rotatePosition", "src/autopas/utils/Quaternion.h:rotatePositionBackwards", "src/autopas/utils/Quaternion.h:qMul", "src/autopas/utils/Quaternion.h:qConjugate", "src/autopas/utils/Quaternion.h:qMirror", "src/autopas/utils/Quaternion.h:convertQuaternionTo3DVec"]}
{"id": "C94", "title": "Rotational time integration of molecules", "statement": "Whatever torques act, a molecule stays rigid: its quaternion has length one after any number of time steps. Every time step ends. The angular momentum changes by the mean torque times the time step; a free molecule keeps it. Pausing the simulation while tuning does not change the motion.", "quantifier": "all molecules, moments of inertia, time steps, initial orientations and angular velocities, all sequences of torques of any length", "why_tests_cant": "Termination of a fixed point iteration up to 1e-13 depends on the angular velocity; conservation and rigidity must hold over any number of steps.", "anchors": ["examples/md-flexible/src/TimeDiscretization.cpp:calculateQuaternionsAndResetTorques", "examples/md-flexible/src/TimeDiscretization.cpp:calculateAngularVelocities", "examples/md-flexible/src/Simulation.cpp:run", "examples/md-flexible/src/Simulation.cpp:updateSimulationPauseState", "applicationLibrary/molecularDynamics/molecularDynamicsLibrary/MultisiteMoleculeLJ.h:MultisiteMoleculeLJ"]}
{"id": "C95", "title": "Interactions of rigid multi-site molecules", "statement": "With the multi-site functor each owned molecule gets the sum of the textbook Lennard-Jones forces on its sites, and the torque (site \u2212 centre) \u00d7 force, of all other molecules with centres within the cutoff; the potential energy is that of the pairs of sites. All data layouts and kernels agree. Momentum and total angular momentum are conserved with Newton 3, rotating and shifting all molecules rotates forces and torques and keeps the energy, and force and torque are minus the derivatives of the energy.", "quantifier": "all molecules, numbers and positions of sites, orientations, ownerships, parameters, all sequences of kernel calls, orders and threads, all rigid motions, all axes", "why_tests_cant": "The SoA kernels index flat arrays of sites of all molecules; an off-by-one shows only for particular mixes of numbers of sites, deleted molecules and masks. The physical laws are identities over real numbers.", "anchors": ["applicationLibrary/molecularDynamics/molecularDynamicsLibrary/LJMultisiteFunctor.h:AoSFunctor", "applicationLibrary/molecularDynamics/molecularDynamicsLibrary/LJMultisiteFunctor.h:SoAFunctorSingle", "applicationLibrary/molecularDynamics/molecularDynamicsLibrary/LJMultisiteFunctor.h:SoAFunctorPairImpl", "applicationLibrary/molecularDynamics/molecularDynamicsLibrary/LJMultisiteFunctor.h:SoAFunctorVerletImpl", "applicationLibrary/molecularDynamics/molecularDynamicsLibrary/LJMultisiteFunctor.h:endTraversal"]}
{"id": "C96", "title": "Particles travel between ranks unchanged", "statement": "Particles that md-flexible sends from one rank to another arrive there complete, in order and with every member (identity, position, velocity, force, old force, type, ownership, and for multi-site molecules orientation, angular velocity and torque) bit for bit equal; they are appended to what was received before, and the n-th receive from a rank gets the n-th message of that rank, empty messages included.", "quantifier": "all lists of molecules of both kinds, all member values including NaNs and signed zeros, all sequences of messages, all contents of the receiving vectors", "why_tests_cant": "Tests send a few particles with finite values. Byte offsets, the hand-written constant for the size of a particle and the tables of attributes must agree for all; messages above 2 GiB cannot be tested.", "anchors": ["examples/md-flexible/src/ParticleSerializationTools.cpp:serializeParticle", "examples/md-flexible/src/ParticleSerializationTools.cpp:deserializeParticles", "examples/md-flexible/src/ParticleCommunicator.cpp:sendParticles", "examples/md-flexible/src/ParticleCommunicator.cpp:receiveParticles", "applicationLibrary/molecularDynamics/molecularDynamicsLibrary/MoleculeLJ.h:get", "applicationLibrary/molecularDynamics/molecularDynamicsLibrary/MultisiteMoleculeLJ.h:set"]}
{"id": "C97", "title": "Predictive tuning extrapolates run times and tries the promising configurations first", "statement": "With predictive tuning, the run time predicted for a configuration is the extrapolation of its measurements with the chosen method (line through the last two, least-squares line, interpolating polynomial, last result), up to rounding to whole nanoseconds. A new tuning phase tests exactly the configurations whose predictions are within the relative range of the best one, the best first, and those with too few measurements or none within the given number of phases; no configuration is tested twice and none is left untested for longer than that number.", "quantifier": "all evidence, iterations, phases, options, queues, orders of hash maps and sets, histories of tuning phases of any length", "why_tests_cant": "Tests feed a few hand-made measurements for two or three configurations. Overflow handling, truncation, reuse of stored functions and the retest interval depend on whole histories.", "anchors": ["src/autopas/tuning/tuningStrategy/PredictiveTuning.cpp:reset", "src/autopas/tuning/tuningStrategy/PredictiveTuning.cpp:calculatePredictions", "src/autopas/tuning/tuningStrategy/PredictiveTuning.cpp:linePrediction", "src/autopas/tuning/tuningStrategy/PredictiveTuning.cpp:linearRegression", "src/autopas/tuning/tuningStrategy/PredictiveTuning.cpp:newtonPolynomial", "src/autopas/tuning/tuningStrategy/PredictiveTuning.cpp:lastResult", "src/autopas/utils/Math.h:safeMul"]}
{"id": "C98", "title": "Smoothed particle hydrodynamics: kernel and density are the textbook ones", "statement": "The SPH kernel of the library is positive inside its support radius of 2.5 smoothing lengths, zero outside, decreasing and normalised to integral one, and its gradient function is the gradient of it (with a regularised division). After computing interactions with the density functor, the density of every owned particle is the sum over all particles within the support of mass times kernel, its own included, for every traversal, data layout, Newton 3 setting and order of the work.", "quantifier": "all distance vectors and smoothing lengths; all histories of container operations, numbers and positions of particles, masses, traversals, data layouts, Newton 3 settings and schedules", "why_tests_cant": "Tests compare the kernel at a few distances and one or two particle pairs against hard coded numbers; normalisation and the gradient are statements about all real arguments, and the density depends on all traversals and schedules.", "anchors": ["applicationLibrary/sph/SPHLibrary/SPHKernels.h:W", "applicationLibrary/sph/SPHLibrary/SPHKernels.h:gradW", "applicationLibrary/sph/SPHLibrary/SPHCalcDensityFunctor.h:AoSFunctor", "applicationLibrary/sph/SPHLibrary/SPHCalcDensityFunctor.h:SoAFunctorPair", "examples/sph/sph-main.cpp:densityPressureHydroForce"]}
{"id": "C99", "title": "Smoothed particle hydrodynamics: forces, heating and signal speeds are right and conserve momentum and energy", "statement": "After computing interactions with the hydrodynamic force functor, the acceleration and the change of internal energy of every owned particle are the textbook sums over all particles within the support, and its maximal signal speed is the largest one to a particle it interacts with, independent of traversal, data layout, Newton 3 setting and order of the work. Without halo particles, the total momentum and the total energy do not change. The time step is the largest allowed by the Courant condition of all particles.", "quantifier": "all histories of container operations, all particle properties, traversals, data layouts, Newton 3 settings and schedules", "why_tests_cant": "Tests use one pair of particles with equal smoothing lengths; conservation must hold for any number of particles, and the result must not depend on the order of the arguments of a call, which the container chooses.", "anchors": ["applicationLibrary/sph/SPHLibrary/SPHCalcHydroForceFunctor.h:AoSFunctor", "applicationLibrary/sph/SPHLibrary/SPHCalcHydroForceFunctor.h:SoAFunctorSingle", "applicationLibrary/sph/SPHLibrary/SPHCalcHydroForceFunctor.h:SoAFunctorPair", "applicationLibrary/sph/SPHLibrary/SPHCalcHydroForceFunctor.h:SoAFunctorVerlet", "applicationLibrary/sph/SPHLibrary/SPHParticle.cpp:calcPressure", "examples/sph/sph-main.cpp:getTimeStepGlobal"]}
{"id": "C100", "title": "The vectorised Lennard-Jones functor computes the same physics as the plain one", "statement": "With the AVX Lennard-Jones functor, every kernel stays inside the arrays it is given for any number of particles, and has exactly the effect of calling the plain particle-pair kernel for each pair. After computing interactions, forces of owned particles, potential energy and virial are the textbook sums, for every traversal, data layout, Newton 3 setting, number of threads and distribution of the work, and are those of the non-vectorised functor. Deleted particles have no influence wherever they lie.", "quantifier": "all numbers of particles (not only multiples of the register width), positions, types, ownership states, mixing and shift settings, neighbour lists, histories of container operations, traversals and schedules", "why_tests_cant": "Tests compare the two functors on a few particles in one order; remainder masks depend on the number of particles modulo the register width, and out-of-range loads or the influence of masked lanes show only for particular values there.", "anchors": ["applicationLibrary/molecularDynamics/molecularDynamicsLibrary/LJFunctorAVX.h:SoAKernel", "applicationLibrary/molecularDynamics/molecularDynamicsLibrary/LJFunctorAVX.h:SoAFunctorSingle", "applicationLibrary/molecularDynamics/molecularDynamicsLibrary/LJFunctorAVX.h:SoAFunctorPair", "applicationLibrary/molecularDynamics/molecularDynamicsLibrary/LJFunctorAVX.h:SoAFunctorVerlet"]}
{"id": "C101", "title": "Rule-based tuning tests what the rules leave, and verification of the rules reports exactly their contradictions", "statement": "With rule-based tuning, in every tuning phase exactly those applicable configurations are tested that no applicable rule calls worse than something else, or all of them if the rules leave none, and then the fastest of them is used. If the rules are right about the run times, the configuration used is the fastest of all applicable ones. In verification mode everything is tested, exactly the contradictions between rules and measurements of the phase are reported, and the reported avoidable time is that of the configurations the rules would have removed.", "quantifier": "all rule sets (also varying with the live information of the phase), search spaces, applicability verdicts, measurements, numbers of samples and numbers of tuning phases", "why_tests_cant": "Rules are written by users, and which of them apply depends on live measurements; tests use one rule file with a handful of configurations and a single phase.", "anchors": ["src/autopas/tuning/tuningStrategy/ruleBasedTuning/RuleBasedTuning.cpp:optimizeSuggestions", "src/autopas/tuning/tuningStrategy/ruleBasedTuning/RuleBasedTuning.cpp:applyRules", "src/autopas/tuning/tuningStrategy/ruleBasedTuning/RuleBasedTuning.cpp:verifyCurrentConfigTime", "src/autopas/tuning/tuningStrategy/ruleBasedTuning/RuleBasedProgramTree.h:ConfigurationPattern::matches", "src/autopas/tuning/tuningStrategy/ruleBasedTuning/RuleBasedProgramTree.cpp:haveEqualSameProperties"]}
{"id": "C102", "title": "The search space is exactly the set of valid combinations of the allowed options", "statement": "What AutoPas tunes over is exactly the set of combinations of allowed container, traversal, load estimator, data layout, Newton 3 option and cell size factor that can be executed: the traversal belongs to the container, exists for functors of this interaction type and accepts the data layout and Newton 3 option. No valid combination is missing, none occurs twice, none that can never run is included, and if there are none an exception is thrown. With large enough cells and domain every configuration of the search space is accepted by its traversal. For an interval of cell size factors one factor is taken for each different number of cells.", "quantifier": "all sets of allowed options, cell size factors, interaction types, domains, cutoffs, skins and rebuild frequencies", "why_tests_cant": "There are 2^33 sets of allowed traversals alone; tests check the size of the search space for a few. That tables in one file agree with the applicability checks spread over twenty others is a statement about all combinations.", "anchors": ["src/autopas/tuning/utils/SearchSpaceGenerators.cpp:cartesianProduct", "src/autopas/tuning/Configuration.cpp:hasCompatibleValues", "src/autopas/containers/CompatibleTraversals.h:allCompatibleTraversals", "src/autopas/containers/CompatibleLoadEstimators.h:getApplicableLoadEstimators", "src/autopas/tuning/selectors/TraversalSelector.h:generatePairwiseTraversal", "src/autopas/AutoPasImpl.h:init"]}
{"id": "C103", "title": "Fuzzy tuning predicts within the rules and tests exactly what they select", "statement": "For every rule set and live information the degrees of membership are between 0 and 1 and the fuzzy operators coincide with the classical ones in clear cases; the prediction of a fuzzy system is the center of gravity (mean of maximum) of the degrees to which its rules suggest the output values, independent of the order of the rules, and in the range of the output variable; the configurations selected are those that match the patterns given for the value closest to the prediction (or whose suitability is within the threshold of the best), and in each tuning phase exactly these are tested and the fastest of them is used afterwards.", "quantifier": "all membership functions and parameters, rules, live information, numbers of samples, output mappings, search spaces, measurements and numbers of tuning phases", "why_tests_cant": "Membership functions, rules and data range over real numbers; tests evaluate a few rules at a few points. What a rule file selects over a history of tuning phases depends on all of them.", "anchors": ["src/autopas/tuning/tuningStrategy/fuzzyTuning/FuzzyTuning.cpp:reset", "src/autopas/tuning/tuningStrategy/fuzzyTuning/OutputMapper.cpp:getClosestConfigurationPatterns", "src/autopas/tuning/tuningStrategy/fuzzyTuning/fuzzyController/FuzzySet.cpp:centerOfGravity", "src/autopas/tuning/tuningStrategy/fuzzyTuning/fuzzyController/FuzzySet.cpp:meanOfMaximum", "src/autopas/tuning/tuningStrategy/fuzzyTuning/fuzzyController/FuzzySetFactory.cpp:makeFuzzySet", "src/autopas/tuning/tuningStrategy/fuzzyTuning/fuzzyController/FuzzyControlSystem.cpp:predict", "src/autopas/tuning/tuningStrategy/fuzzyTuning/parser_generated/TranslationVisitor.cpp:visitConfiguration_pattern"]}
{"id": "C104", "title": "The objects of the md-flexible input become exactly the requested particles, inside the simulation box", "statement": "Each object of the input yields exactly the particles described: a grid all points of the cubic lattice, a sphere all lattice points within reach of the centre, a closest packing all sites of the hexagonal packing in its box, each once and never closer than the spacing; uniform and gauss objects the requested number of particles inside their box. The particles of all objects have ids 0, 1, 2, ... without gaps, the type and velocity of their object, and lie inside the simulation box, which contains the box given by the user, is at least as long as the interaction length, and keeps lattice objects the mean of their spacings away from all periodic images. The number of particles reported per object is the number generated.", "quantifier": "all numbers, sizes, positions and spacings of objects of all five kinds, any number of objects, all results of the random generators, all boxes and interaction lengths", "why_tests_cant": "The lattices and boxes range over real numbers and arbitrary many objects; tests generate a few small objects.", "anchors": ["examples/md-flexible/src/configuration/objects/CubeGrid.h:generate", "examples/md-flexible/src/configuration/objects/CubeGauss.h:generate", "examples/md-flexible/src/configuration/objects/CubeUniform.h:generate", "examples/md-flexible/src/configuration/objects/Sphere.h:generate", "examples/md-flexible/src/configuration/objects/CubeClosestPacked.h:generate", "examples/md-flexible/src/configuration/MDFlexConfig.cpp:calcSimulationBox", "examples/md-flexible/src/configuration/MDFlexConfig.h"]}
{"id": "C105", "title": "A checkpoint of md-flexible contains all particles and can be loaded again with any number of ranks", "statement": "A checkpoint written by any number of ranks, in any order and over older files, is loaded completely: with the same number of ranks every rank gets exactly its own particles in the same order, with another number rank 0 gets all of them; ids and types are equal, and velocities, forces, positions and for molecules with sites quaternions, angular velocities and torques are the decimal numbers with six or more digits closest to the stored values. Particles inside the box of their rank are loaded inside it.", "quantifier": "all numbers of ranks when writing and loading, all particles, all session names, iterations and directories, all boxes, all orders of writing, all contents of the disk before", "why_tests_cant": "The text of every number, the search for words and the guard for positions next to the border depend on all digits of all values; tests write and read a handful of particles.", "anchors": ["examples/md-flexible/src/ParallelVtkWriter.cpp:recordParticleStates", "examples/md-flexible/src/ParallelVtkWriter.cpp:createParticlesPvtuFile", "examples/md-flexible/src/configuration/MDFlexConfig.cpp:loadParticlesFromCheckpoint", "examples/md-flexible/src/configuration/MDFlexConfig.cpp:loadParticlesFromRankRecord"]}
{"id": "C106", "title": "At the start of md-flexible every particle comes to the one rank whose part of the box it lies in", "statement": "Whatever particles the ranks have read from a checkpoint or generated from objects, in whichever distribution: if all of them lie in the simulation box, each rank afterwards owns exactly the particles inside its local box, each particle is owned by exactly one rank, and nothing is lost or duplicated. If one of them lies outside the box the program reports an error. The resulting state is one from which the simulation loop keeps all particles; a checkpoint can be continued with any number of ranks.", "quantifier": "all decompositions that tile the box, all distributions of particles over the ranks, all numbers of ranks of the writer of a checkpoint and of the reader", "why_tests_cant": "Numbers of ranks and positions are unbounded; tests run on one or a few ranks.", "anchors": ["examples/md-flexible/src/Simulation.cpp:loadParticles", "src/autopas/AutoPasImpl.h:addParticlesIf", "src/autopas/LogicHandler.h:addParticle", "examples/md-flexible/src/configuration/MDFlexConfig.cpp:initializeObjects"]}
{"id": "C107", "title": "Smoothing of tuning measurements is local regression and does not distort good measurements", "statement": "With smoothing enabled, the evidence stored for a configuration is the measured value or, if that is lower, the value at the last measurement (rounded to the nearest integer) of the line that fits the last five measurements best with tri-cube weights. Equal measurements and measurements on a line stay as they are, and the stored value never exceeds the measured one.", "quantifier": "all histories of measurements with increasing iterations, all values, all sizes of the neighbourhood", "why_tests_cant": "Least squares optimality is a statement over all lines and all measurements.", "anchors": ["src/autopas/tuning/utils/Smoothing.cpp:smoothLastPoint", "src/autopas/tuning/utils/Smoothing.cpp:calculateWeightsSimple", "src/autopas/tuning/utils/Smoothing.cpp:calculateYFitSimple", "src/autopas/tuning/AutoTuner.cpp:addMeasurement"]}
{"id": "C108", "title": "Random search and sorting by name", "statement": "With random search as the only tuning strategy, every tuning phase tests exactly the requested number of pairwise different configurations of the search space and then uses the fastest of them until the next phase, whatever random numbers are drawn; apart from the first configuration tested, every choice in every order can occur. It never chooses from an empty queue. With sorting by name, every phase tests all applicable configurations in descending order and then uses the fastest.", "quantifier": "every search space, number of configurations to test, sequence of random numbers, number of samples and history of measurements over any number of tuning phases", "why_tests_cant": "random choices and the histories of measurements cannot be enumerated, and the access to an empty queue happens only for particular sizes of search spaces", "anchors": ["src/autopas/tuning/tuningStrategy/RandomSearch.cpp: optimizeSuggestions, reset, addEvidence", "src/autopas/tuning/tuningStrategy/SortByName.cpp: optimizeSuggestions, reset", "src/autopas/tuning/AutoTuner.cpp: tuneConfiguration"]}
{"id": "C109", "title": "Logs of tuning can be replayed", "statement": "Every measurement and all live info written to the tuning strategy log is read back as it was written (decimal numbers of the live info to six digits, configurations with at most six decimals of the cell size factor exactly). Replaying a log to a strategy that does not drop configurations returns the fastest configuration measured in the last logged phase, also if the program was stopped while writing, and strategies that drop configurations can be replayed as well.", "quantifier": "every table of option names, configuration, live info, number of logged phases, sequence of measurements, search space, strategy, and every point at which the log is cut off", "why_tests_cant": "the log is read character by character and its end can be anywhere; tests replay a few short logs of one phase", "anchors": ["src/autopas/tuning/tuningStrategy/TuningStrategyLogReplayer.cpp: replay", "src/autopas/tuning/tuningStrategy/TuningLogEntry.h: fromString", "src/autopas/tuning/tuningStrategy/TuningLogEntry.cpp: writeEvidence, readEvidence, writeLiveInfo, readLiveInfo", "src/autopas/tuning/Configuration.cpp: toString, operator>>", "src/autopas/tuning/tuningStrategy/LiveInfo.h: operator<<, operator>>", "src/autopas/options/Option.h: operator>>"]}
{"id": "C110", "title": "MPI ranks tune together", "statement": "With the divide-and-conquer strategy the configurations are spread over all ranks with a similar part of the domain (same bucket: no jump of more than the given fraction between neighbouring similarity metrics). Every configuration is measured by some rank, all ranks stay in the tuning phase equally long, none waits for ever, and at the end every rank uses the fastest configuration that was found and is applicable to it.", "quantifier": "every number of ranks and configurations, similarity metric, measured time, rejection and history of earlier phases", "why_tests_cant": "whether the collective calls of all ranks match depends on the relation between the numbers of ranks and configurations and on which are rejected when; tests run with one or two ranks", "anchors": ["src/autopas/tuning/tuningStrategy/MPIParallelizedStrategy.cpp: reset, optimizeSuggestions, rejectConfiguration", "src/autopas/utils/AutoPasConfigurationCommunicator.cpp: findGloballyBestConfiguration, distributeRanksInBuckets", "src/autopas/tuning/AutoTuner.cpp: tuneConfiguration, rejectConfig", "src/autopas/tuning/searchSpace/EvidenceCollection.cpp: getOptimalConfiguration, getLatestOptimalConfiguration"]}
{"id": "C111", "title": "forEach and reduce treat every selected particle exactly once", "statement": "AutoPas::forEach applies the given code to, and AutoPas::reduce folds the given code over, every particle AutoPas holds whose ownership matches the behaviour, each exactly once, and no other particle; forEachInRegion and reduceInRegion do the same for the particles inside of the region.", "quantifier": "all containers LinkedCells, DirectSum and Octree, all contents, all behaviours, all regions, all lambdas, and (for LinkedCells) all histories of user operations", "why_tests_cant": "which particles are visited depends on cell boundaries, particles that moved since the last rebuild, particles waiting in buffers and particles marked as dummies; tests try a few fillings directly after insertion", "anchors": ["src/autopas/AutoPasDecl.h: forEach, reduce, forEachInRegion, reduceInRegion", "src/autopas/containers/linkedCells/LinkedCells.h: forEach, reduce, forEachInRegion, reduceInRegion", "src/autopas/containers/directSum/DirectSum.h: forEach, reduce, forEachInRegion, reduceInRegion", "src/autopas/containers/octree/Octree.h: forEach, reduce, forEachInRegion, reduceInRegion", "src/autopas/cells/FullParticleCell.h: forEachImpl, reduceImpl"]}
{"id": "C112", "title": "The statistics given to tuning describe the particles", "statement": "What AutoPas tells its tuning strategies about the simulation (LiveInfo, homogeneity, maximum density) is true of the stored particles: their number, how many are in the halo, how many cells of the size of the cutoff the box has, how many of them are empty, the smallest, largest and average number of particles in a cell and the relative standard deviation of these numbers, and the standard deviation and maximum of the density over equal parts of the box.", "quantifier": "all boxes, cutoffs and particle positions", "why_tests_cant": "a wrong statistic is a plausible number: tuning goes on with a worse choice; tests look at a few arrangements, without halo particles, and compare with numbers computed by the same formulas", "anchors": ["src/autopas/tuning/tuningStrategy/LiveInfo.h: gather", "src/autopas/utils/SimilarityFunctions.h: calculateHomogeneityAndMaxDensity"]}
{"id": "C113", "title": "forEach and reduce of cluster lists treat every particle exactly once", "statement": "With the container VerletClusterLists, forEach, reduce, forEachInRegion and reduceInRegion hand each particle of the asked kind (and inside of the region) exactly once to the caller's code, whether it is sorted in or still waiting to be sorted in, hand no other particle to it, and never change the particles that only fill up clusters.", "quantifier": "all contents of the towers and of the vectors of new particles, all grids, regions, kinds of particles and pieces of code, and all displacements of at most half the skin since the last rebuild", "why_tests_cant": "skipping depends on the numbers of towers, on the side lengths of towers in both directions and on where particles have moved since the rebuild; tests use symmetric boxes and freshly sorted particles", "anchors": ["src/autopas/containers/verletClusterLists/VerletClusterLists.h: forEach, reduce, forEachInRegion, reduceInRegion", "src/autopas/containers/verletClusterLists/ClusterTowerBlock2D.h: cellCanContainOwnedParticles, getTowerBoundingBox", "src/autopas/containers/verletClusterLists/ClusterTower.h: generateClusters, setDummyValues", "src/autopas/cells/FullParticleCell.h: forEachImpl, reduceImpl"]}
{"id": "C114", "title": "Bayesian search measures new configurations of the search space and uses the fastest of them", "statement": "With Bayesian search as the only tuning strategy, every tuning phase measures at least one and at most the requested number of configurations, all of the search space and none twice, those that the acquisition function values most first, and then uses the fastest of the measured ones until the next phase.", "quantifier": "all search spaces, samples, predictions, ways to sort equal values, measurements and numbers of tuning phases", "why_tests_cant": "which configurations remain in the queue depends on all random samples and all predictions so far; tests run one phase on a handful of configurations with a fixed seed", "anchors": ["src/autopas/tuning/tuningStrategy/BayesianSearch.cpp: optimizeSuggestions, sampleAcquisitions, reset, addEvidence, rejectConfiguration", "src/autopas/tuning/tuningStrategy/BayesianSearch.h: BayesianSearch", "src/autopas/tuning/AutoTuner.cpp: tuneConfiguration"]}
{"id": "C115", "title": "The Gaussian process predicts as well as its observations allow", "statement": "A prediction is an average of best linear predictions from all observations since everything was last forgotten, with weights that are proportional to the likelihood of the observations; the reported variance is the variance of the prediction, is positive and never more than without observations; the best observation is the first with the greatest value.", "quantifier": "all histories of observations and resets, all dimensions, places, positive noises, random draws and Cholesky decompositions", "why_tests_cant": "correctness is a statement about minima over all weights and about positive definiteness of every matrix of kernel values; tests compare a few predictions with a tolerance", "anchors": ["src/autopas/tuning/tuningStrategy/GaussianModel/GaussianProcess.cpp: addEvidence, clear, predictMean, predictVar, getDefaultVar, tuneHyperparameters, normalizeHyperparameters, kernel, kernelVector", "src/autopas/tuning/tuningStrategy/GaussianModel/GaussianHyperparameters.cpp: precalculate", "src/autopas/utils/NumberInterval.h: uniformSample"]}
{"id": "C116", "title": "Samples of options and numbers are balanced", "statement": "A sample of n elements of a finite set has exactly n elements, all of the set, and each occurs as often as the others, give or take one, with random extra ones; a sample of an interval consists of n evenly spaced numbers including both ends; a random subset has the requested size. A Latin hypercube sample of the search space has the requested size, only uses allowed options and is balanced in every dimension.", "quantifier": "all pools, sizes, intervals, sets of allowed options and all outcomes of shuffling and drawing", "why_tests_cant": "what is sampled depends on the random generator; tests fix a seed or check that results are inside of the pool", "anchors": ["src/autopas/utils/Random.h: uniformSample, pickRandom, randomSubset", "src/autopas/utils/NumberInterval.h: uniformSample, uniformSampleSet", "src/autopas/utils/NumberSetFinite.h: uniformSample, uniformSampleSet", "src/autopas/tuning/utils/FeatureVectorEncoder.cpp: lhsSampleFeatures"]}
{"id": "C117", "title": "Acquisition functions mean what their names say", "statement": "For every predicted mean and positive variance, the probability of improvement is the probability that a normally distributed value exceeds the greatest value so far, the expected improvement is the expected excess, and the upper confidence bound is exceeded with the same probability by all predictions; with equal variance a greater mean is preferred, and of several samples the first with the greatest value is chosen.", "quantifier": "all real means, positive variances, greatest values, all histories of the Gaussian process and all lists of samples", "why_tests_cant": "the claims are about integrals; tests compare a few orderings", "anchors": ["src/autopas/tuning/tuningStrategy/GaussianModel/AcquisitionFunction.cpp: calcAcquisition", "src/autopas/utils/Math.cpp: normalPDF, normalCDF", "src/autopas/tuning/tuningStrategy/GaussianModel/GaussianProcess.cpp: calcAcquisition, sampleAquisitionMax, predictOutputPDF"]}
{"id": "C118", "title": "The options of all ranks together are the allowed options", "statement": "Whatever options are allowed and however many ranks there are, distributing the configurations ends and gives every rank some of the allowed options, about the same number, such that every combination of allowed options that can be executed is one of the options of some rank; an interval of cell size factors is divided such that every factor in it is offered with every combination of the other options.", "quantifier": "all sets of allowed options, numbers of ranks, intervals of cell size factors", "why_tests_cant": "remainders of divisions and the nested iteration over options meet in ways that a test with a few ranks does not reach", "anchors": ["src/autopas/utils/AutoPasConfigurationCommunicator.cpp: distributeConfigurations, generateDistribution, getSearchSpaceSize", "src/autopas/utils/ConfigurationAndRankIteratorHandler.cpp: advanceIterators, advanceConfigIterators, advanceRankIterator, selectTraversalsForCurrentContainer"]}
{"id": "C119", "title": "The vectorised (SVE) Lennard-Jones functor computes the same physics", "statement": "With the Lennard-Jones functor for ARM processors, whatever the length of the vector registers and the number of particles, no array is accessed out of bounds and forces, potential energy and virial are those of the plain functor.", "quantifier": "every vector length, every number of particles, every set of positions, types and ownership states, with or without Newton 3, every schedule of the kernel calls, any mixing parameters", "why_tests_cant": "A test runs on one processor with one vector length and a few particles, mostly of one type; here any number of lanes and particles counts, and the errors show only with different types of particles in certain positions of a cell.", "anchors": ["applicationLibrary/molecularDynamics/molecularDynamicsLibrary/LJFunctorSVE.h:LJFunctorSVE::SoAFunctorSingle, SoAFunctorPair, SoAFunctorVerlet, SoAKernel, distCalc, lennardJones, applyForces"]}
{"id": "C120", "title": "The Gaussian processes for discrete and continuous inputs keep their evidence apart and mix their predictions properly", "statement": "The model for inputs with discrete and continuous parts holds one Gaussian process for each discrete vector, and this process knows exactly the evidence for its vector. After clear() no evidence is left. The greatest evidence is reported. Predictions have positive variance. A sampling of the acquisition function covers every discrete vector and every continuous sample once; its value is a weighted mean of the acquisition functions of the process and its neighbours; invalid dimensions and discrete inputs are reported.", "quantifier": "every history of setDimensions, clear and addEvidence, every number and size of dimensions, every neighbour function, weight function and acquisition function, every set of samples, any random numbers", "why_tests_cant": "A test checks a few evidences in two or three clusters; the statement is about all histories, the mixture for any neighbour function, and clear() which no test follows by a prediction.", "anchors": ["src/autopas/tuning/tuningStrategy/GaussianModel/GaussianCluster.cpp:GaussianCluster::addEvidence, clear, setDimensions, sampleAcquisition, sampleAcquisitionMax, sampleOrderedByAcquisition, getNeighbourWeights, updateNeighbourWeights, initClusters, getIndex, discreteIncrement", "src/autopas/tuning/tuningStrategy/GaussianModel/GaussianProcess.cpp:GaussianProcess::setHyperparameters, normalizeHyperparameters"]}
{"id": "C121", "title": "Tuning phases with Bayesian cluster search measure everything first and then a bounded selection, and use the fastest of it", "statement": "With Bayesian cluster search, the first tuning phase measures every configuration of the search space. Every later phase measures at least one and at most the given number of configurations, none twice and all of the search space, preferring those with a high acquisition value, and then uses the fastest of them. Configurations that are rejected for one phase only are considered again in the next. If no valid configuration can be sampled an exception is thrown.", "quantifier": "every search space, every number of phases, every sequence of samples, every prediction of the model, every outcome of sorting equal values, all measured times, every history of rejections", "why_tests_cant": "Tests run few phases with one random seed; here any sample sequence and any predictions count, and the preference and the treatment of rejections only show over several phases.", "anchors": ["src/autopas/tuning/tuningStrategy/BayesianClusterSearch.cpp:BayesianClusterSearch::reset, optimizeSuggestions, addEvidence, rejectConfiguration, sampleAcquisitions", "src/autopas/tuning/AutoTuner.cpp:AutoTuner::tuneConfiguration"]}
{"id": "C122", "title": "The smoothed particle hydrodynamics examples exchange halo and leaving particles completely", "statement": "In the SPH examples (one or several MPI ranks), after the halo update each rank has as halo particles exactly the periodic images of all particles that lie around its box within the cutoff, each once, so that every interaction partner of an owned particle is present. After the boundary update every particle that left its rank is owned, at its position in the periodic box, by exactly the rank whose box it lies in; none is lost or doubled. The initial particles are divided among the ranks without gaps or duplicates and have the intended total mass.", "quantifier": "every global box, every grid of ranks whose boxes are at least one cutoff wide, all particle sets and positions, all leaving particles not further than the cutoff from their box", "why_tests_cant": "Tests do not run these examples, and a test can only place some particles on some grid; faces, edges and corners, one or two ranks per dimension and periodic wrap-around interact.", "anchors": ["examples/sph-mpi/sph-main-mpi.cpp:getDecomposition, getSendRecvPartner, getSendHalo, getSendLeaving, updateHaloParticles, periodicBoundaryUpdate, SetupIC", "examples/sph/sph-main.cpp:getRequiredHalo, updateHaloParticles, addEnteringParticles, SetupIC"]}
{"id": "C123", "title": "The message exchange of the SPH example neither deadlocks nor mixes up messages", "statement": "In every execution of the exchange of the SPH example on several ranks, whatever the relative speed of the ranks and whether or not MPI buffers messages: as long as a rank has not finished, some rank can proceed; every rank performs at most three communication steps per round; at the end each rank has received from each direction exactly what the partner in that direction sent in that round, and no message is left.", "quantifier": "every grid of ranks, every schedule of the ranks, every choice of buffered and unbuffered messages, every message content, also content that depends on messages received before", "why_tests_cant": "A deadlock or a mixed-up message depends on the schedule and on whether MPI buffers; test runs see one of them, usually with buffering.", "anchors": ["examples/sph-mpi/sph-main-mpi.cpp:getSendRecvPartner, issueSend, receive, waitSend, updateHaloParticles, periodicBoundaryUpdate"]}
{"id": "C124", "title": "Without MPI the wrapper of MPI behaves as MPI with one process", "statement": "In a build without MPI, the functions that replace MPI behave as the MPI standard says for one process: a reduction yields the contribution of the process for every operation and type, gathering yields its elements at the place of rank 0 and leaves the rest of the buffer alone, broadcasting changes nothing, requests of non-blocking operations complete and are released once, and the process is at the origin of every grid. So tuning that is shared among ranks returns the own optimum.", "quantifier": "every type, element count, displacement, buffer content and reduction operation, every sequence of uses of a request, every configuration and measured time", "why_tests_cant": "Unit tests of the wrapper use a few types and counts; a wrong element size shows only for particular types, and then may read or write beyond the buffer without a visible effect.", "anchors": ["src/autopas/utils/WrapMPI.h:AutoPas_MPI_Reduce, AutoPas_MPI_Allreduce, AutoPas_MPI_Gather, AutoPas_MPI_Gatherv, AutoPas_MPI_Allgather, AutoPas_MPI_Bcast, AutoPas_MPI_Test, AutoPas_MPI_Request_free, AutoPas_MPI_Cart_get", "src/autopas/utils/AutoPasConfigurationCommunicator.cpp:gatherConfigurations, findGloballyBestConfiguration"]}
{"id": "C125", "title": "Tuning with Active Harmony keeps the search correct and follows the server", "statement": "Whatever the Active Harmony server answers, tuning only ever measures configurations of the search space, every tuning phase ends with the configuration with the lowest measured time, and the strategy acts on what the server fetched: the suggested configurations are tried and no others, a converged server ends the phase, and every call returns.", "quantifier": "every server (any sequence of fetched values and any state of convergence), every search space, every sequence of measurements, rejections and resets", "why_tests_cant": "The unit tests only construct the strategy; they need a server and explore a handful of fetched configurations. What the server answers in a run cannot be foreseen.", "anchors": ["src/autopas/tuning/tuningStrategy/ActiveHarmony.cpp:ActiveHarmony::addEvidence, ActiveHarmony::fetchConfiguration, ActiveHarmony::optimizeSuggestions, ActiveHarmony::reset, ActiveHarmony::setupTuningParameters", "src/autopas/tuning/tuningStrategy/ActiveHarmony.h:fetchTuningParameter"]}
{"id": "C126", "title": "Exceptions reported by several threads are handled one at a time and nobody waits for ever", "statement": "The exception handler can be called and reconfigured by any number of threads at the same time. Every history looks as if the calls happened one after the other, in the order of each thread: each report is treated by the behaviour that was set last before it. No interleaving leads to a deadlock, and every call returns, throws or ends the program as configured.", "quantifier": "every number of threads, every program of handler calls of each thread, every interleaving, every behaviour and every type of exception", "why_tests_cant": "Which thread gets the lock is up to the scheduler; unit tests use a single thread and cannot enumerate interleavings, and a deadlock shows only for particular call sites.", "anchors": ["src/autopas/utils/ExceptionHandler.h:ExceptionHandler::exception, ExceptionHandler::setBehavior, ExceptionHandler::setCustomAbortFunction", "src/autopas/utils/ExceptionHandler.cpp:ExceptionHandler::rethrow, ExceptionHandler::handleException"]}
{"id": "C127", "title": "Saturating arithmetic, rounding, timers and aligned memory keep their promises", "statement": "Integer addition, subtraction and multiplication with safeguards return the exact result if it fits and otherwise the value for the side on which it does not fit. Rounding to decimals or to significant digits gives a number with that many digits, at most half a unit away. The sigmoid function is between 0 and 1, increasing and symmetric. A timer reports the sum of the intervals measured since its last reset and accepts exactly alternating starts and stops. Aligned allocation requests a multiple of the alignment that is large enough, and refuses what could wrap around.", "quantifier": "every integer type and operands, every real number and precision, every sequence of timer calls, every alignment, element size and count", "why_tests_cant": "Boundaries of types cannot be sampled completely; histories of timer calls and sizes close to the largest size_t are unbounded in number.", "anchors": ["src/autopas/utils/Math.h:safeAdd, safeSub, safeMul, pow", "src/autopas/utils/Math.cpp:sigmoid, isNearRel, roundFixed, roundFloating", "src/autopas/utils/Timer.cpp:Timer::start, Timer::stop, Timer::reset, Timer::addTime", "src/autopas/utils/AlignedAllocator.h:AlignedAllocator::allocate, AlignedAllocator::max_size"]}
{"id": "C128", "title": "The tuning strategies a user selects are set up with the search space", "statement": "Initialisation succeeds whenever every interaction type has a valid configuration. Each tuner then knows exactly the valid configurations and has the selected strategies in the selected order, each set up for that search space: the options a strategy infers from the search space span it and nothing more, what a strategy suggests can be in the search space, and the configuration to fall back to is one that can be used.", "quantifier": "every set of allowed options for every interaction type, every list of selected strategies, every sampler and server", "why_tests_cant": "The sets of options and the selections of strategies are far too many to enumerate; unit tests construct strategies directly, with an interaction type, and not the way initialisation does.", "anchors": ["src/autopas/AutoPasImpl.h:AutoPas::init", "src/autopas/tuning/tuningStrategy/TuningStrategyFactory.cpp:generateTuningStrategy", "src/autopas/tuning/tuningStrategy/TuningStrategyFactoryInfo.h:TuningStrategyFactoryInfo", "src/autopas/tuning/utils/SearchSpaceGenerators.cpp:inferOptionDimensions", "src/autopas/tuning/tuningStrategy/BayesianSearch.cpp:BayesianSearch", "src/autopas/tuning/tuningStrategy/MPIParallelizedStrategy.cpp:createFallBackConfiguration"]}
{"id": "C129", "title": "Energy measurements count every package once, for exactly one iteration", "statement": "If energy is measured, what an iteration reports is the energy consumed during that iteration on every CPU package, each counted once, in joules; the value used for tuning is that of the whole system, or else of packages and memory. If measuring is not possible or fails, the iteration says so, or an exception is thrown if energy is what is tuned for. Counters are closed when they are no longer needed.", "quantifier": "every machine (topology, available counters, permissions, failures at any time), every history of initialisations, resets, samples and iterations", "why_tests_cant": "Tests run on one machine, mostly without access to the counters; failures at run time and other topologies cannot be provoked.", "anchors": ["src/autopas/utils/RaplMeter.cpp:RaplMeter::init, RaplMeter::reset, RaplMeter::sample, RaplMeter::get_total_energy", "src/autopas/tuning/AutoTuner.cpp:AutoTuner::resetEnergy, AutoTuner::sampleEnergy", "src/autopas/LogicHandler.h:LogicHandler::computeInteractions"]}
{"id": "C130", "title": "Reported FLOPs and hit rate are those of the pairs the Lennard-Jones functor looked at", "statement": "After a traversal with FLOP counting, getNumFLOPs() is the sum of the documented cost of all pairs the kernels looked at since initTraversal() (8 for the distance, 15 for the force and 3 more with Newton 3, 8 for the globals and more with shift and Newton 3), without deleted particles, and getHitRate() is the share of those pairs that are in the range of the potential, between 0 and 1. The kernels used, the threads, the order of calls and what earlier traversals counted do not matter. The documented cost is the number of operations the kernel executes.", "quantifier": "all particles, all sequences of calls of the four kernels on all threads, all counters left from before, all vector lengths", "why_tests_cant": "Tests count for four particles on one thread; other schedules, deleted particles, list lengths around the vector length and stale counters are not covered.", "anchors": ["applicationLibrary/molecularDynamics/molecularDynamicsLibrary/LJFunctor.h:LJFunctor::AoSFunctor, LJFunctor::SoAFunctorSingle, LJFunctor::SoAFunctorPair, LJFunctor::SoAFunctorVerlet, LJFunctor::initTraversal, LJFunctor::getNumFLOPs, LJFunctor::getHitRate", "src/autopas/utils/logging/FLOPLogger.cpp:FLOPLogger::logIteration"]}
{"id": "C131", "title": "Structures of arrays behave like vectors of particles, and loading and extracting never mixes particles up", "statement": "Whatever sequence of operations is applied to a structure of arrays, it behaves like a vector of records: sizes, values read, exceptions. Loading the particles of one cell, or of all cells into one structure by several threads, puts the needed attributes of each particle at its own place, whatever the arrays contained before; extracting sets exactly the computed attributes of each particle to the values of its own place. Loading and extracting without a computation in between changes nothing, for each functor of the library.", "quantifier": "all sequences of operations, all particles, all partitions into cells, all orders of the threads, all previous contents of the arrays, all sets of needed and computed attributes", "why_tests_cant": "Tests load a few cells one after the other into an empty structure; other orders of threads, stale contents of the arrays, and large numbers of particles are not covered.", "anchors": ["src/autopas/utils/SoA.h:SoA::resizeArrays, SoA::append, SoA::writeMultiple, SoA::readMultiple, SoA::swap, SoA::pop_back, SoA::size", "src/autopas/utils/SoAView.h:SoAView", "src/autopas/baseFunctors/Functor.h:Functor::SoALoader, Functor::SoAExtractor", "src/autopas/utils/DataLayoutConverter.h:DataLayoutConverter", "src/autopas/containers/verletListsCellBased/verletLists/traversals/VLListIterationTraversal.h:VLListIterationTraversal::initTraversal, VLListIterationTraversal::endTraversal", "src/autopas/containers/verletListsCellBased/verletListsCells/neighborLists/VLCNeighborListInterface.h:VLCNeighborListInterface::loadSoA, VLCNeighborListInterface::extractSoA", "src/autopas/containers/verletListsCellBased/varVerletLists/neighborLists/asBuild/VerletNeighborListAsBuild.h:VerletNeighborListAsBuild::loadSoA"]}
{"id": "C132", "title": "Each line of a log file has exactly one value for each column of its header", "statement": "Whoever reads the CSV log files (iterations, FLOPs, tuning data, tuning results, predictions, live info) by splitting lines at commas gets, for each line, as many values as there are columns in the header, and each value is that of its column: options of the configuration, times, samples, energies, whatever configuration was used and whatever was measured.", "quantifier": "all configurations, all texts of options and numbers, all numbers of samples with and without rebuilding, all functors, energy measurements that work or fail, all histories of live info", "why_tests_cant": "Tests do not read log files; a few runs with one configuration do not show that lines always match the header, and the columns depend on what was measured.", "anchors": ["src/autopas/utils/logging/IterationLogger.cpp:IterationLogger::logIteration", "src/autopas/utils/logging/FLOPLogger.cpp:FLOPLogger::logIteration", "src/autopas/utils/logging/TuningDataLogger.cpp:TuningDataLogger::logTuningData", "src/autopas/utils/logging/TuningResultLogger.cpp:TuningResultLogger::logTuningResult", "src/autopas/utils/logging/PredictionLogger.cpp:PredictionLogger::logAllPredictions", "src/autopas/utils/logging/LiveInfoLogger.cpp:LiveInfoLogger::logLiveInfo", "src/autopas/tuning/Configuration.cpp:Configuration::getCSVRepresentation, Configuration::toString", "src/autopas/tuning/tuningStrategy/LiveInfo.h:LiveInfo::getCSVLine"]}
{"id": "C133", "title": "The command line of md-flexible overrides the input file option by option, and reports what it does not understand", "statement": "For every sequence of options on the command line of md-flexible: an option that is not given keeps the value of the input file (or its default), an option that is given has the value of its last argument alone, whatever other options are given and in whatever order; numbers, names and texts have the value that was typed; a functor adds its interaction type; particles are generated from options only if neither file nor checkpoint has any; success is reported if and only if every option and argument was understood.", "quantifier": "all sequences of options and arguments, all input files, all tables of option names, all file systems", "why_tests_cant": "Tests parse a few fixed command lines with all options; repeated options, other orders, combinations with files, and arguments that are nearly right are not covered.", "anchors": ["examples/md-flexible/src/configuration/CLIParser.cpp:MDFlexParser::CLIParser::parseInput, MDFlexParser::CLIParser::inputFilesPresent", "examples/md-flexible/src/configuration/MDFlexParser.cpp:MDFlexParser::parseInput", "examples/md-flexible/src/configuration/MDFlexConfig.h:MDFlexConfig::MDFlexOption", "src/autopas/options/Option.h:Option::parseOptions"]}
{"id": "C134", "title": "Input files of md-flexible: every key sets its own option to the value written, and anything not understood is reported", "statement": "For every input file of md-flexible: a key sets its option to the value written there and no other option; options without a key keep their value; keys may come in any order; numbers, names, texts, vectors, sites, objects and thermostat have the values written in the file; a functor adds its interaction type; the file is accepted if and only if all keys are known and all their values are understood and in range.", "quantifier": "all input files as trees of nodes, all previous configurations, all tables of option names, all conversions of texts to numbers", "why_tests_cant": "Tests parse a handful of files; repeated keys, wrong types, negative numbers, missing sub-keys and empty values in all positions are not covered.", "anchors": ["examples/md-flexible/src/configuration/YamlParser.cpp:MDFlexParser::YamlParser::parseYamlFile, parseSequenceOneElementExpected, parseCubeGridObject, parseSphereObject", "examples/md-flexible/src/configuration/YamlParser.h:parseComplexTypeValueSingle, parseComplexTypeValueSequence", "examples/md-flexible/src/configuration/MDFlexConfig.cpp:MDFlexConfig::addSiteType, MDFlexConfig::addLJParametersToSite", "src/autopas/options/Option.h:Option::parseOptions"]}
{"id": "C135", "title": "The configuration file that md-flexible writes at the end of a simulation is an input file for the same simulation", "statement": "For every configuration: the file written at the end of a simulation, given to md-flexible as input file, is accepted, and every option, all sites, all objects and the thermostat have the values the simulation had.", "quantifier": "all configurations, all tables of option names, all ways of printing and reading numbers", "why_tests_cant": "Tests do not read the end configuration; the file depends on all options and which of them are used together, and rounding depends on the values.", "anchors": ["examples/md-flexible/src/configuration/MDFlexConfig.cpp:MDFlexConfig::to_string", "examples/md-flexible/src/main.cpp:main", "examples/md-flexible/src/configuration/objects/Object.h:Object::to_string", "examples/md-flexible/src/configuration/YamlParser.cpp:MDFlexParser::YamlParser::parseYamlFile"]}
{"id": "C136", "title": "md-flexible simulates exactly as long as it is asked to, and its files show the trajectory", "statement": "For every configuration and every behaviour of the parts of a time step: the simulation stops after the first number of time steps with which the requested iterations and tuning phases are done; load balancing and thermostat act in the steps that are multiples of their intervals; a VTK file exists for exactly the multiples of the write frequency and for the end, and it holds the state after as many time steps as its name says.", "quantifier": "all configurations, all implementations of moving, exchanging, interacting, tuning and the thermostat, all initial states, all numbers of steps", "why_tests_cant": "The number of steps, the places of tuning phases and the coincidence of a phase with a write are unbounded; tests run a handful of iterations without pausing.", "anchors": ["examples/md-flexible/src/Simulation.cpp:Simulation::run", "examples/md-flexible/src/Simulation.cpp:Simulation::needsMoreIterations", "examples/md-flexible/src/Simulation.cpp:Simulation::updateInteractionForces", "examples/md-flexible/src/Simulation.cpp:Simulation::updateSimulationPauseState", "examples/md-flexible/src/Simulation.cpp:Simulation::updateThermostat"]}
{"id": "C137", "title": "The progress bar of md-flexible fills the terminal and never disturbs the simulation", "statement": "For every width of the terminal and every progress: either the bar is switched off because the terminal is too narrow, or one line is printed that fills the terminal exactly, with the arrow tip at the column of the progress, the rounded percentage and the numbers of iterations. Printing never ends the simulation.", "quantifier": "all terminal widths, all settings of COLUMNS, all numbers of done and requested iterations", "why_tests_cant": "The failing width depends on the number of digits of the iterations; tests have no terminal.", "anchors": ["examples/md-flexible/src/Simulation.cpp:Simulation::printProgress", "examples/md-flexible/src/Simulation.cpp:getTerminalWidth"]}
{"id": "C138", "title": "Load estimates count every cell of a region once, and balanced slices take their shares", "statement": "For every block of cells and every region: the estimated load is the sum over the cells of the region, each once, of the squared number of particles or of the lengths of the neighbour lists. When work is cut into slices for the threads by such estimates, every slice but the last takes its share of the load that is left: not more than one layer above it unless the minimal thickness demands it, and not less unless one more layer were farther off.", "quantifier": "all numbers of cells, all contents of cells and neighbour lists, all regions, all numbers of threads", "why_tests_cant": "The estimates only change performance, so tests of results do not see them; regions, contents and thread numbers are unbounded.", "anchors": ["src/autopas/containers/LoadEstimators.h:squaredParticlesPerCell", "src/autopas/containers/LoadEstimators.h:neighborListLength", "src/autopas/containers/cellTraversals/SlicedBalancedBasedTraversal.h:SlicedBalancedBasedTraversal::initSliceThickness"]}
{"id": "C139", "title": "Names of vtk files are unique, linked and in order", "statement": "Whatever session, kind of file, rank and iteration: two vtk files that differ in kind, rank or iteration have different names, so no output overwrites another. Each main file lists, relative to its own folder, exactly the data files of all ranks of the same iteration. Up to the last iteration of the simulation, the alphabetical order of the file names is the order of the iterations.", "quantifier": "all session names and folders, all numbers of ranks, all iterations and lengths of simulations", "why_tests_cant": "Names are only compared for a few short runs in tests; the number of digits changes with the length of the run.", "anchors": ["src/autopas/examples/md-flexible/src/ParallelVtkWriter.cpp:ParallelVtkWriter::generateFilename", "src/autopas/examples/md-flexible/src/ParallelVtkWriter.cpp:ParallelVtkWriter::createParticlesPvtuFile", "src/autopas/examples/md-flexible/src/ParallelVtkWriter.cpp:ParallelVtkWriter::createRanksPvtuFile", "src/autopas/examples/md-flexible/src/Simulation.cpp:Simulation::Simulation"]}
{"id": "C140", "title": "Square roots are exact for integers and accurate for floating point numbers", "statement": "For every non-negative integer the compile time square root is the largest integer whose square is not larger, without overflow or division by zero; negative integers are refused. For every positive real number and every positive tolerance the computation ends, and the result differs from the root by at most the tolerance.", "quantifier": "all integers of any type, all positive real numbers and tolerances, any number of steps of Newton's method", "why_tests_cant": "The number of steps depends on the argument and is unbounded; tests compare a handful of arguments.", "anchors": ["src/autopas/src/autopas/utils/ConstexprMath.h:sqrt"]}
{"id": "C141", "title": "The estimated number of halo particles is what a uniform density gives", "statement": "For every box and halo width: the number of halo particles for which memory is reserved is the number of particles expected in the halo if the density there is that of the box. The buffers together reserve the estimate, up to rounding.", "quantifier": "all boxes with positive lengths, all halo widths, all numbers of particles and buffers", "why_tests_cant": "The value only steers reservations, so no test of results sees it; boxes and numbers are unbounded.", "anchors": ["src/autopas/src/autopas/utils/NumParticlesEstimator.cpp:estimateNumHalosUniform", "src/autopas/src/autopas/LogicHandler.h:LogicHandler::reserve"]}
{"id": "C142", "title": "The reported memory usage is the one of the operating system", "statement": "Whatever else the status file of the process contains: the reported memory usage is the number of kilobytes of resident memory in that file. Without the file or the entry zero is reported.", "quantifier": "all status files, all amounts of memory", "why_tests_cant": "The status file is written by the operating system and differs in every run; the format depends on the number.", "anchors": ["src/autopas/src/autopas/utils/MemoryProfiler.cpp:currentMemoryUsage", "src/autopas/examples/md-flexible/src/Simulation.cpp:Simulation::run"]}
{"id": "C143", "title": "Files that show octrees and domains are well-formed and show the right boxes", "statement": "For every octree: the vtk file declares the sizes of its lists, and its cells are the leaves, each with its eight corners in the order its cell type prescribes; the JSON files are well-formed lists of all leaves, all neighbours and all particles. For every rank: the vtk file of its domain shows the eight corners of the domain in the order of its cell type.", "quantifier": "all octrees, leaves, contents of leaves and neighbourhoods; all domains", "why_tests_cant": "The number and contents of leaves are unbounded; there are no tests that read the files again.", "anchors": ["src/autopas/src/autopas/utils/logging/OctreeLogger.h:OctreeLogger::logTree", "src/autopas/src/autopas/utils/logging/OctreeLogger.h:OctreeLogger::particlesToJSON", "src/autopas/src/autopas/utils/logging/OctreeLogger.h:OctreeLogger::leavesToJSON", "src/autopas/examples/md-flexible/src/ParallelVtkWriter.cpp:ParallelVtkWriter::recordDomainSubdivision"]}
{"id": "C144", "title": "The progress bar of md-flexible counts to the end of the simulation", "statement": "A simulation that is limited by tuning phases ends with the time step after the last of them. The number of iterations the progress bar counts to is exact and called precise without such a limit; with it, and full search, it is called an estimate and is never too small, and exact for a single phase.", "quantifier": "all numbers of phases, iterations, samples and configurations, all intervals longer than the tuning, all behaviours of the parts of a time step", "why_tests_cant": "The numbers are unbounded and depend on each other.", "anchors": ["src/autopas/examples/md-flexible/src/Simulation.cpp:Simulation::estimateNumberOfIterations", "src/autopas/examples/md-flexible/src/Simulation.cpp:Simulation::needsMoreIterations", "src/autopas/examples/md-flexible/src/Simulation.cpp:Simulation::updateInteractionForces"]}
