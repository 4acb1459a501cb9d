{"id": "C01", "title": "Random samples lie in the unit interval", "statement": "Every number returned by the generator lies in [0, 1], and the documented half-open interval [0, 1[ is left only for the 1024 top states out of 2^64, where the conversion of the state to f64 rounds up to exactly 1.0. The documented claim 'in [0;1[' is therefore false for those states and true for all others.", "quantifier": "every 64-bit generator state", "why_tests_cant": "2^64 states; the failing ones have probability 2^-54, so no sampled test meets them", "anchors": ["fastiron/src/utils/mc_rng_state.rs::rng_sample"]}
{"id": "C02", "title": "The generator has full period", "statement": "Starting from any seed, drawing numbers one after the other visits all 2^64 states before repeating any: after k draws the state is back to the start exactly when 2^64 divides k.", "quantifier": "every seed and every number of draws", "why_tests_cant": "a period of 2^64 cannot be run through", "anchors": ["fastiron/src/utils/mc_rng_state.rs::rng_sample"]}
{"id": "C03", "title": "Spawned seeds never collide for distinct parents states", "statement": "The seed given to a new particle is a one-to-one function of the parent's generator state: two different states never spawn the same seed, and every 64-bit value is the seed of exactly one state. Spawning advances the parent by exactly one draw.", "quantifier": "all pairs of 64-bit states", "why_tests_cant": "pairs range over 2^128 values", "anchors": ["fastiron/src/utils/mc_rng_state.rs::spawn_rn_seed", "fastiron/src/utils/mc_rng_state.rs::hash_state", "fastiron/src/utils/mc_rng_state.rs::pseudo_des"]}
{"id": "C04", "title": "Siblings created from one particle get distinct identifiers", "statement": "All the particles created from one parent by a fission or by a population split have pairwise distinct identifiers and generator seeds.", "quantifier": "every parent particle, every number of offspring up to 2^64, every float behaviour", "why_tests_cant": "holds for every parent state; a test samples a few", "anchors": ["fastiron/src/particles/mc_particle.rs::sample_collision", "fastiron/src/particles/mc_particle.rs::under_populated_split", "fastiron/src/utils/mc_rng_state.rs::spawn_rn_seed"]}
{"id": "C05", "title": "Sourced particles have distinct identifiers over a whole run", "statement": "Any two particles created by the source, in the same or in different cells and cycles, have different identifiers and different initial generator seeds, as long as fewer than 2^32 particles are sourced per cell and the mesh has at most 2^32 cells. For a valid input this needs only that the number of cycles times a tenth of the requested number of particles is at most 2^32.", "quantifier": "every mesh, every number of cycles, every per-cycle source count", "why_tests_cant": "needs all histories of source counts", "anchors": ["fastiron/src/simulation/population_control.rs::source_now", "fastiron/src/geometry/mc_domain.rs::MCDomain::new"]}
{"id": "C06", "title": "Particle balance holds in every cycle", "statement": "In every completed cycle, start + source + produce + split = absorb + census + escape + rr + fission where rr counts both roulette games; no particle is lost or duplicated, whatever the tracking loop does.", "quantifier": "every input problem, particle population, random seed, execution policy, chunk size and float behaviour", "why_tests_cant": "a unit test sees one seed and one problem; the identity must survive every mixture of events", "anchors": ["fastiron/src/main.rs::cycle_process", "fastiron/src/particles/particle_container.rs::ParticleContainer", "fastiron/src/simulation/cycle_tracking.rs::cycle_tracking_guts", "fastiron/src/simulation/collision_event.rs::collision_event"]}
{"id": "C07", "title": "Reported counters chain from cycle to cycle and the lost-particle check always passes", "statement": "At each cycle boundary the number of surviving particles equals the census count of the finished cycle and the start count of the next one; after any number of cycles the cumulative counters satisfy the benchmark's missing-particle equation, so that check prints PASS.", "quantifier": "every number of cycles and every input problem", "why_tests_cant": "inductive over an unbounded number of cycles", "anchors": ["fastiron/src/main.rs::cycle_sync", "fastiron/src/main.rs::run", "fastiron/src/montecarlo.rs::MonteCarloResults::update_stats", "fastiron/src/data/tallies.rs::Tallies::cycle_finalize", "fastiron/src/utils/coral_benchmark_correctness.rs::missing_particle_test"]}
{"id": "C08", "title": "Event counters are consistent with each other", "statement": "Collisions = scatters + absorptions + fissions, and segments = collisions + census + facet crossings, so the subtraction in the benchmark's event-balance check never underflows and yields exactly the number of facet crossings performed.", "quantifier": "every input problem, schedule and number of cycles", "why_tests_cant": "must hold for every sequence of events", "anchors": ["fastiron/src/simulation/cycle_tracking.rs::cycle_tracking_guts", "fastiron/src/simulation/collision_event.rs::collision_event", "fastiron/src/utils/coral_benchmark_correctness.rs::balance_event_test"]}
{"id": "C09", "title": "Parallel tracking gives the sequential result for every schedule", "statement": "Processing the particles with any chunk size, any number of workers and any interleaving of their accesses to the shared cross-section cache, shared flux tally and shared list of new particles yields the same tracked particles in the same order, the same counters, and the same new particles up to order, as sequential processing.", "quantifier": "every chunk size, every interleaving of atomic operations of the workers, every float behaviour", "why_tests_cant": "the number of interleavings is astronomically large and tests observe one", "anchors": ["fastiron/src/particles/particle_container.rs::process_particles", "fastiron/src/simulation/cycle_tracking.rs::cycle_tracking_guts", "fastiron/src/particles/particle_collection.rs::ParticleProducerMut::split_at"]}
{"id": "C10", "title": "The lazily filled cross-section cache is transparent", "statement": "Reading a total cross-section through the shared cache always gives the value that direct computation gives for that cell and energy group, even while other workers fill the cache, and clearing it never changes results. This holds for energy groups within the tables; for the group just above the last level it fails: the direct computation panics and the cache answers with the value of the next cell once that is filled.", "quantifier": "every interleaving, every cell and in-range group", "why_tests_cant": "races on the cache depend on the schedule", "anchors": ["fastiron/src/simulation/mc_segment_outcome.rs::outcome", "fastiron/src/montecarlo.rs::XSCache", "fastiron/src/simulation/macro_cross_section.rs::weighted_macroscopic_cross_section"]}
{"id": "C11", "title": "The scalar flux tally is exactly the sum of path length times weight", "statement": "At the end of the tracking phase each (cell, group) flux entry is its initial value plus the sum over all segments tallied there of path length times weight; in exact arithmetic the value does not depend on the schedule, and no segment's contribution is lost.", "quantifier": "every interleaving and every set of segments", "why_tests_cant": "lost updates would be schedule dependent", "anchors": ["fastiron/src/simulation/cycle_tracking.rs::cycle_tracking_function", "fastiron/src/data/tallies.rs::ScalarFluxDomain", "fastiron/src/data/tallies.rs::Tallies::scalar_flux_sum"]}
{"id": "C12", "title": "Cell and node numbering is a bijection", "statement": "Converting a cell index to grid coordinates and back is the identity on [0, nx*ny*nz), and the converse is the identity on in-range coordinates; the same for the node numbering with its four sub-lattices.", "quantifier": "every grid size and every index", "why_tests_cant": "unbounded grid sizes", "anchors": ["fastiron/src/geometry/global_fcc_grid.rs::GlobalFccGrid::cell_idx_to_tuple", "fastiron/src/geometry/global_fcc_grid.rs::GlobalFccGrid::cell_tuple_to_idx", "fastiron/src/geometry/global_fcc_grid.rs::GlobalFccGrid::node_idx_to_tuple", "fastiron/src/geometry/global_fcc_grid.rs::GlobalFccGrid::node_tuple_to_idx"]}
{"id": "C13", "title": "Locating a point finds the cell that contains it", "statement": "For every point of the half-open box [0,lx)x[0,ly)x[0,lz) the located cell index is in range and the point is in the half-open cell of that index; in particular the centre of cell i is located in cell i. A point on an upper face of the box is located outside the grid (or in a wrong cell).", "quantifier": "every grid and every point of the box", "why_tests_cant": "real-valued points", "anchors": ["fastiron/src/geometry/global_fcc_grid.rs::GlobalFccGrid::which_cell", "fastiron/src/geometry/global_fcc_grid.rs::GlobalFccGrid::cell_center"]}
{"id": "C14", "title": "Face neighbours are symmetric and only border cells are their own neighbour", "statement": "The neighbour of a cell across a face is a valid cell; it is the cell itself exactly when that face lies on the border of the problem; otherwise going back through the opposite face returns to the starting cell.", "quantifier": "every grid size, cell and face", "why_tests_cant": "unbounded grid sizes", "anchors": ["fastiron/src/geometry/global_fcc_grid.rs::GlobalFccGrid::get_face_nbr_gids", "fastiron/src/geometry/global_fcc_grid.rs::GlobalFccGrid::snap_turtle", "fastiron/src/geometry/mod.rs::FACE_OFFSET"]}
{"id": "C15", "title": "Facets of neighbouring cells match", "statement": "The facet recorded as the other side of an interior facet belongs to the neighbouring cell, records the first facet as its own other side, and is the same triangle. The 'same triangle' part holds on the x and y faces and fails on the z faces.", "quantifier": "every grid, interior facet", "why_tests_cant": "unbounded grids; the startup consistency check does not look at the triangles", "anchors": ["fastiron/src/geometry/mc_domain.rs::OPPOSING_FACET", "fastiron/src/geometry/mc_domain.rs::make_facet", "fastiron/src/geometry/mc_domain.rs::build_cells", "fastiron/src/init.rs::consistency_check"]}
{"id": "C16", "title": "The mesh of a single-unit run covers every cell exactly once", "statement": "When the random starting point lies inside the grid, building the mesh for one unit visits every cell of the grid exactly once, gives it an index in [0, n) that is also its position in the cell list, marks every interior facet as on-unit transit and every border facet with the configured boundary condition, so the startup consistency check passes and no tracked particle can meet an undefined or off-unit facet. A draw of exactly 1 puts the starting point outside the grid and the mesh then has a cell too many.", "quantifier": "every grid size, every domain centre, every hash-map iteration order, every supported boundary condition", "why_tests_cant": "unbounded grid sizes, and iteration order of the hash map is unspecified", "anchors": ["fastiron/src/geometry/mesh_partition.rs::MeshPartition::build_mesh_partition", "fastiron/src/geometry/mc_domain.rs::build_cells", "fastiron/src/init.rs::init_mesh", "fastiron/src/init.rs::consistency_check"]}
{"id": "C17", "title": "Facet planes are unit, outward, and contain their triangle", "statement": "Each facet plane has a unit normal, all three corners of the facet lie on it, and the whole cell lies on its non-positive side; three distinct non-aligned points always give such a plane with a unit normal.", "quantifier": "every grid with positive dimensions, every cell and facet; every triangle", "why_tests_cant": "real-valued coordinates", "anchors": ["fastiron/src/geometry/facets.rs::MCGeneralPlane::new", "fastiron/src/geometry/facets.rs::MCFacetAdjacencyCell::get_planes", "fastiron/src/geometry/mc_domain.rs::NODE_INDIRECT"]}
{"id": "C18", "title": "Cell volumes are exact and add up to the box", "statement": "The volume computed for each cell is dx*dy*dz and the volumes of all the cells add up to lx*ly*lz.", "quantifier": "every grid with positive dimensions", "why_tests_cant": "real-valued dimensions and unbounded grids", "anchors": ["fastiron/src/geometry/mc_domain.rs::MCDomain::cell_volume", "fastiron/src/geometry/mc_domain.rs::MCDomain::cell_center"]}
{"id": "C19", "title": "Sourced positions are inside their cell", "statement": "The starting position drawn for a sourced particle is always inside the closed box of its cell.", "quantifier": "every grid, cell and generator seed", "why_tests_cant": "2^64 seeds and real-valued meshes", "anchors": ["fastiron/src/simulation/mct.rs::generate_coordinate_3dg", "fastiron/src/simulation/mct.rs::cell_position_3dg"]}
{"id": "C20", "title": "Direction vectors stay normalised", "statement": "Isotropic sampling gives a unit direction; rotating a unit direction by any scattering angle gives a unit direction whose angle with the original one is exactly the requested angle (up to the documented threshold near the poles); reflection keeps the norm.", "quantifier": "every direction, angle and generator seed", "why_tests_cant": "real-valued", "anchors": ["fastiron/src/particles/mc_particle.rs::sample_isotropic", "fastiron/src/particles/mc_particle.rs::rotate_direction", "fastiron/src/particles/mc_particle.rs::update_trajectory"]}
{"id": "C21", "title": "Reflection is specular and sends the particle back inside", "statement": "At a reflecting border the normal component of the direction is reversed, the tangential part is unchanged, the speed and energy do not change; a particle that already heads inside is left untouched, so reflecting twice equals reflecting once.", "quantifier": "every unit plane and direction", "why_tests_cant": "real-valued", "anchors": ["fastiron/src/simulation/mct.rs::reflect_particle"]}
{"id": "C22", "title": "The segment ends at the nearest event", "statement": "The segment length is the least of the distances to collision, census and facet; ties are resolved in that order; the particle is moved by exactly that length along its direction, and the time to census and age move by length over speed. A particle that comes with a negative optical path collides at once, without a new draw of its flight length.", "quantifier": "every particle state, mesh and cross-section", "why_tests_cant": "real-valued state space", "anchors": ["fastiron/src/simulation/mc_segment_outcome.rs::outcome", "fastiron/src/simulation/mc_segment_outcome.rs::DistanceHandler"]}
{"id": "C23", "title": "Time bookkeeping is exact during tracking", "statement": "While a particle is tracked, its age plus its time to census is constant, its time to census never becomes negative, its remaining optical path stays non-negative so a collision is never forced, and a particle that reaches census has exactly zero time left.", "quantifier": "every sequence of segments", "why_tests_cant": "invariant over unbounded event sequences", "anchors": ["fastiron/src/simulation/mc_segment_outcome.rs::outcome", "fastiron/src/simulation/cycle_tracking.rs::cycle_tracking_guts"]}
{"id": "C24", "title": "No particle is advanced by more than one time step per cycle", "statement": "During one cycle the age of a particle grows by at most dt. This fails for fission offspring born exactly at census: they get a fresh dt in the same cycle.", "quantifier": "every particle and event sequence", "why_tests_cant": "the failing tie has probability close to zero", "anchors": ["fastiron/src/simulation/cycle_tracking.rs::cycle_tracking_guts", "fastiron/src/particles/mc_particle.rs::sample_collision"]}
{"id": "C25", "title": "Nearest-facet search gives the exit point of the cell", "statement": "For a position inside a cell and a unit direction, the reported distance is the distance at which the ray leaves the cell box, the reported facet contains the exit point up to the relative tolerance of the search, and the search ends at its first attempt. The product with the normal of the facet, which the particle is said to keep when it crosses it, is never computed: it is zero after every segment.", "quantifier": "every grid, cell, interior position and direction", "why_tests_cant": "real-valued state space", "anchors": ["fastiron/src/simulation/mct.rs::nearest_facet", "fastiron/src/simulation/mct.rs::mct_nf_3dg", "fastiron/src/simulation/mct.rs::mct_nf_compute_nearest", "fastiron/src/simulation/mct.rs::mct_nf_3dg_dist_to_segment"]}
{"id": "C26", "title": "Energy-group lookup is correct", "statement": "For increasing energy levels the lookup returns the group whose half-open interval contains the energy, 0 at or below the lowest level, and the extra index num_groups above the highest one; it always terminates. With rounding, and whatever the order of the levels, it still answers, and the energy lies between the two levels of the answer.", "quantifier": "every table of levels and every energy", "why_tests_cant": "unbounded tables, real energies", "anchors": ["fastiron/src/data/nuclear_data.rs::NuclearData::get_energy_groups", "fastiron/src/data/nuclear_data.rs::NuclearData::new"]}
{"id": "C27", "title": "Tabulated energies keep the simulation in range", "statement": "If eMax >= 20 and material masses are at least 1, every energy reached by sourcing, scattering and fission stays in [0, eMax], so every table access of the tracking loop is in range. With eMax < 20 a fission can produce an energy above eMax and the group index is out of range. In a material of mass below 1 a scattering can give a negative energy.", "quantifier": "every sequence of collisions", "why_tests_cant": "invariant over unbounded event sequences", "anchors": ["fastiron/src/particles/mc_particle.rs::sample_collision", "fastiron/src/simulation/population_control.rs::source_now", "fastiron/src/data/nuclear_data.rs::NuclearData::get_energy_groups", "fastiron/src/data/tallies.rs::ScalarFluxDomain"]}
{"id": "C28", "title": "The colliding reaction is chosen in proportion to its cross-section", "statement": "With positive cross-sections the reaction search ends in its first pass and picks reaction k exactly when the drawn value falls in the k-th interval of cumulated cross-sections; the intervals tile [0, total).", "quantifier": "every material, isotope list, energy group and drawn value", "why_tests_cant": "real-valued and unbounded lists", "anchors": ["fastiron/src/simulation/collision_event.rs::collision_event", "fastiron/src/particles/mc_particle.rs::get_current_xs"]}
{"id": "C29", "title": "The macroscopic cross-section is the density-weighted sum", "statement": "The total cross-section of a cell of non-zero density is the sum over isotopes and reactions of fraction * density * cross-section, is the same total used by the reaction search, and is positive when one of the terms is positive and none negative. At zero density it is 1e-20 per isotope, although the reaction search then finds no weight.", "quantifier": "every material and energy group", "why_tests_cant": "unbounded lists", "anchors": ["fastiron/src/simulation/macro_cross_section.rs::weighted_macroscopic_cross_section", "fastiron/src/data/nuclear_data.rs::NuclearData::get_total_cross_section"]}
{"id": "C30", "title": "Cross-section tables are normalised as requested", "statement": "In the first group whose upper level reaches 1 MeV each reaction's value equals its requested share, so the isotope total there is the requested total cross-section when the number of reactions is at least 3. If all levels are below 1 MeV the table is a division by zero.", "quantifier": "every polynomial, number of reactions, ratios and level table", "why_tests_cant": "real-valued", "anchors": ["fastiron/src/data/nuclear_data.rs::NuclearDataReaction::new", "fastiron/src/data/nuclear_data.rs::NuclearData::add_isotope"]}
{"id": "C31", "title": "Fission yield is unbiased and bounded", "statement": "The number of neutrons out of a fission is floor(nuBar) or floor(nuBar)+1, its mean over a uniform draw is nuBar, the event creates exactly that number minus one new particles, and a yield of five or more (possible when nuBar > 4) or an invalid nuBar stops the program.", "quantifier": "every nuBar and draw", "why_tests_cant": "real-valued; expectation", "anchors": ["fastiron/src/particles/mc_particle.rs::sample_collision"]}
{"id": "C32", "title": "Population split preserves weight in expectation", "statement": "Splitting with factor f > 1 leaves a particle with weight w/f and creates floor(f)-1 or floor(f) copies, f-1 on average, so the expected total weight is w; copies differ from the parent only in seed and identifier.", "quantifier": "every factor > 1, particle and draw", "why_tests_cant": "real-valued; expectation", "anchors": ["fastiron/src/particles/mc_particle.rs::under_populated_split", "fastiron/src/particles/particle_container.rs::split_population"]}
{"id": "C33", "title": "Russian roulette preserves weight in expectation", "statement": "With factor f in (0,1) a particle survives with probability f and weight w/f; below the weight cut-off it survives with probability c and weight w/c; so the expected weight is unchanged in both games, and particles above the cut-off are untouched.", "quantifier": "every factor, cut-off, particle and draw", "why_tests_cant": "real-valued; expectation", "anchors": ["fastiron/src/particles/mc_particle.rs::over_populated_rr", "fastiron/src/particles/mc_particle.rs::low_weight_rr", "fastiron/src/particles/particle_container.rs::regulate_population"]}
{"id": "C34", "title": "The split factor steers to the target population", "statement": "The factor is target / current (global), or ceil(target / units) / local with load balancing and 1 for an empty unit, so multiplying the current population by it gives the target; it is below, equal to or above 1 exactly when the population is above, at or below target.", "quantifier": "every population and target", "why_tests_cant": "unbounded naturals", "anchors": ["fastiron/src/simulation/population_control.rs::compute_split_factor", "fastiron/src/main.rs::cycle_process"]}
{"id": "C35", "title": "Source strength never exceeds the requested share", "statement": "Each cycle sources in each cell floor(cell weight / particle weight) particles, so in total at most a tenth of the target number, and falls short by less than one particle per cell; all get the common source weight, so the sourced weight does not exceed the physical source weight.", "quantifier": "every mesh, materials and cycle", "why_tests_cant": "unbounded meshes", "anchors": ["fastiron/src/simulation/population_control.rs::source_now", "fastiron/src/montecarlo.rs::MonteCarloUnit::update_unit_weight", "fastiron/src/main.rs::cycle_sync"]}
{"id": "C36", "title": "Sampled flight lengths are exponential", "statement": "The number of mean free paths drawn for a flight is non-negative and exceeds t with probability exp(-t) for a uniform draw. A zero draw (only for generator state 0) gives an infinite flight, which ends on a facet or at census and never by a collision; every other flight is of at most 45 mean free paths in f32 and f64.", "quantifier": "every draw, every t >= 0, and every binary format not smaller than f32", "why_tests_cant": "a distribution law", "anchors": ["fastiron/src/particles/mc_particle.rs::sample_num_mfp"]}
{"id": "C37", "title": "Particle speed is relativistic and below the speed of light", "statement": "The speed is positive for positive energy, below the speed of light, and grows with energy.", "quantifier": "every non-negative energy", "why_tests_cant": "real-valued", "anchors": ["fastiron/src/particles/mc_particle.rs::get_speed"]}
{"id": "C38", "title": "Material of a cell is decided by geometry order", "statement": "A cell gets the material of the first geometry in the list that contains its centre; in terms of the input file this is the last Geometry block of the file; a centre outside all geometries stops the program at startup.", "quantifier": "every list of geometries and point", "why_tests_cant": "unbounded lists and real points", "anchors": ["fastiron/src/geometry/mc_domain.rs::MCDomain::find_material", "fastiron/src/geometry/mc_domain.rs::MCDomain::is_inside", "fastiron/src/data/material_database.rs::MaterialDatabase::find_material", "fastiron/src/utils/input.rs::parse_input_file"]}
{"id": "C39", "title": "Parameter validation accepts exactly the consistent inputs", "statement": "Validation succeeds if and only if there is a geometry, all shapes are defined, every geometry names a known material and every material names three known cross-sections; it reports every violation, not just the first; after validation the look-ups by name of the initialisation cannot fail. Validation does not exclude a cell outside every geometry, which stops the start-up.", "quantifier": "every parameter set", "why_tests_cant": "unbounded maps and lists", "anchors": ["fastiron/src/parameters.rs::Parameters::check_parameters_integrity", "fastiron/src/parameters.rs::Parameters::supply_defaults", "fastiron/src/init.rs::init_nuclear_data"]}
{"id": "C40", "title": "Configuration precedence", "statement": "A value given in the input file overrides the command line, which overrides the default, for every simulation key except the two output names, for which the command line wins; execution-policy settings come from the command line only.", "quantifier": "every combination of options", "why_tests_cant": "combinatorial", "anchors": ["fastiron/src/parameters.rs::Parameters::get_parameters", "fastiron/src/parameters.rs::SimulationParameters::from_cli", "fastiron/src/parameters.rs::Parameters::update_simulation_parameters"]}
{"id": "C41", "title": "Input parsing is independent of key order and rejects unknown keys", "statement": "Reading a block gives the same result for every order of its keys, except that with several faulty values the order decides between an error message and a panic; a block is rejected when it has an unknown key or an unparsable value; all block errors of a file are reported; among repeated blocks with one name the first in the file wins.", "quantifier": "every block, permutation of keys and sequence of blocks", "why_tests_cant": "hash-map order is unspecified; permutations are unbounded", "anchors": ["fastiron/src/parameters.rs::GeometryParameters::from_block", "fastiron/src/parameters.rs::MaterialParameters::from_block", "fastiron/src/parameters.rs::CrossSectionParameters::from_block", "fastiron/src/utils/input.rs::parse_input_file"]}
{"id": "C42", "title": "Execution policy follows the requested units and threads", "statement": "One unit and one thread is sequential, one unit otherwise is threaded, several units are distributed or hybrid (not supported); zero units is refused; the number of parallel chunks is between one and the number of threads when the chunk size is automatic, and the chunks partition the particle list in order. A requested number of threads is ignored unless threads are bound. Threads are bound exactly when this is requested with one unit and several threads.", "quantifier": "every combination of settings and list length", "why_tests_cant": "unbounded naturals", "anchors": ["fastiron/src/utils/mc_processor_info.rs::MCProcessorInfo::new", "fastiron/src/particles/particle_container.rs::process_particles"]}
{"id": "C43", "title": "Domain decomposition tables are consistent", "statement": "Every domain belongs to exactly one rank, the domains assigned to the ranks partition all the domains, and the domain-to-slot table is the inverse of the slot-to-domain one.", "quantifier": "every number of ranks and domains", "why_tests_cant": "unbounded naturals", "anchors": ["fastiron/src/utils/decomposition_object.rs::DecompositionObject::new", "fastiron/src/utils/comm_object.rs::CommObject::new"]}
{"id": "C44", "title": "The nearest domain centre is found", "statement": "The search over the auxiliary grid returns a centre at minimal distance of the query point although it prunes cells, terminates, and leaves the search structure clean for the next query. The lowest-index tie-break intended by the code is not applied.", "quantifier": "every list of centres and query point", "why_tests_cant": "real-valued and unbounded", "anchors": ["fastiron/src/geometry/grid_assignment_object.rs::GridAssignmentObject::nearest_center", "fastiron/src/geometry/grid_assignment_object.rs::GridAssignmentObject::min_dist2"]}
{"id": "C45", "title": "The energy spectrum counts every surviving particle once per cycle", "statement": "After each cycle the spectrum entries grow by the number of surviving particles of each group, so their sum is the sum of the end-of-cycle populations; the indices are always in range; nothing is recorded when no output name is given.", "quantifier": "every population and number of cycles", "why_tests_cant": "unbounded histories", "anchors": ["fastiron/src/montecarlo.rs::MonteCarloResults::update_spectrum", "fastiron/src/data/energy_spectrum.rs::EnergySpectrum"]}
{"id": "C46", "title": "Sorting particles changes only their order", "statement": "Sorting before tracking is a stable permutation ordered by cell and then energy group, and does not change the outcome of any particle nor the counters of the cycle.", "quantifier": "every particle list", "why_tests_cant": "unbounded lists", "anchors": ["fastiron/src/particles/particle_container.rs::sort_processing"]}
{"id": "C47", "title": "Timer statistics are coherent", "statement": "After any positive number of cycles the shortest, average and longest time of each section satisfy shortest <= average <= longest, the total is the exact sum of the recorded cycle times, and average times number of cycles never exceeds the total and misses it by less than the number of cycles squared in clock ticks. Without cycles the order fails, and the last synchronisation of a run is in no total although it is counted. With a clock that never goes backwards, sorting and processing take together at most the time of the tracking, and the sections of the cycles with the last synchronisation at most the time of the whole program. The efficiency of a section is the share of the average time in the longest one, between 0 and 100 percent, and 0 for a section that took no time; the figure of merit is the number of segments per second of tracking, and not a number when there was no cycle.", "quantifier": "every history of durations", "why_tests_cant": "inductive over unbounded histories", "anchors": ["fastiron/src/utils/mc_fast_timer.rs::MCFastTimerContainer::clear_last_cycle_timers", "fastiron/src/utils/mc_fast_timer.rs::stop", "fastiron/src/utils/mc_fast_timer.rs::MCFastTimerContainer::cumulative_report"]}
{"id": "C48", "title": "Post-processing statistics are mathematically sound", "statement": "Variance is non-negative, covariance is symmetric and equals the variance on equal arguments, correlation lies in [-1, 1], is 0 when a variance is 0 and is 1 for a variable with itself otherwise; the flattened table holds row r, column c at 11*r+c; reports are read back in the column order in which the simulation writes them.", "quantifier": "every data set", "why_tests_cant": "real-valued and unbounded", "anchors": ["fastiron-stats/src/structures/raw.rs::TalliedVariable::new", "fastiron-stats/src/structures/raw.rs::covariance", "fastiron-stats/src/structures/raw.rs::correlation", "fastiron-stats/src/structures/processed.rs::CorrelationResults", "fastiron/src/data/tallies.rs::Tallies::print_summary"]}
{"id": "C49", "title": "The fluence homogeneity check is meaningful", "statement": "The fluence check should compare the accumulated flux of the cells of the problem. In the code the fluence table is never sized, so it stays empty for every run and the check passes whatever the flux is.", "quantifier": "every run", "why_tests_cant": "tests of the check pass vacuously", "anchors": ["fastiron/src/data/tallies.rs::FluenceDomain::compute", "fastiron/src/montecarlo.rs::MonteCarloResults::new", "fastiron/src/utils/coral_benchmark_correctness.rs::fluence_test"]}
{"id": "C50", "title": "Tracking never reaches an impossible state", "statement": "With a validated single-unit problem the tracking code never reaches its unreachable, unimplemented or undefined-adjacency branches, and particle cell and facet indices always stay in range.", "quantifier": "every event sequence of every particle", "why_tests_cant": "invariant over unbounded event sequences", "anchors": ["fastiron/src/simulation/cycle_tracking.rs::cycle_tracking_function", "fastiron/src/simulation/mc_facet_crossing_event.rs::facet_crossing_event"]}
{"id": "C51", "title": "Comparison of two timer reports", "statement": "For two timer reports, the comparison holds one line per section in report order; the columns old and new are the total times and the column change is the relative change of the average time. When both runs have the same number of cycles, the change is also that of the two printed totals.", "quantifier": "every pair of timer reports", "why_tests_cant": "real-valued reports; the mismatch only shows when the numbers of cycles differ", "anchors": ["fastiron-stats/src/structures/processed.rs::ComparisonResults"]}
{"id": "C52", "title": "Scaling studies", "statement": "The numbers of threads of a scaling study are the initial number times the powers of the factor; the table pairs each with the times of its own report; the ideal time is constant in a weak study and inversely proportional to the number of threads in a strong one; runs that reach the ideal times of the table reach the ideal speed-up of the plot exactly when the study starts with one thread.", "quantifier": "every initial number, factor, number of runs and set of reports", "why_tests_cant": "unbounded parameters; the plot and the table compute the ideal in two different ways", "anchors": ["fastiron-stats/src/structures/processed.rs::ScalingResults"]}
{"id": "C53", "title": "The nuclear data of a run are those of the input, whatever the hash order", "statement": "For validated parameters there is exactly one material per material of the input, with its name, mass, number of isotopes in equal proportions that sum to one, and reactions made from the cross-sections it names; no isotope is shared between materials. The order of the hash maps changes the numbering only: a material of a given name has the same mass, isotopes and macroscopic cross-section at every density and energy group.", "quantifier": "every validated parameter set and every pair of hash orders", "why_tests_cant": "the hash order differs from run to run and cannot be enumerated by tests", "anchors": ["fastiron/src/init.rs::init_nuclear_data", "fastiron/src/data/nuclear_data.rs::NuclearData::add_isotope", "fastiron/src/data/material_database.rs"]}
{"id": "C54", "title": "The exported cross-section table is what the transport uses", "statement": "The exported table has one entry per material and one row per energy group, at the middle energy of the group; its absorption, fission and scattering values are the sums by type of the weights of the reactions of the material and together give the macroscopic cross-section of the transport per unit density, values below 1e-13 being written as zero. The columns of one material are separated in the file, those of successive materials are not.", "quantifier": "every validated parameter set and hash order, every material and energy group", "why_tests_cant": "the table and the transport compute the same quantity by two different programs, on unbounded inputs", "anchors": ["fastiron/src/init.rs::check_cross_sections", "fastiron/src/simulation/macro_cross_section.rs::weighted_macroscopic_cross_section"]}
{"id": "C55", "title": "The energy group of a particle is always the group of its energy", "statement": "While a particle is tracked, at the start of every segment, and for every survivor after any number of cycles, the recorded energy group is the group found by looking up its kinetic energy; over the reals it is the one group whose energy interval holds it. With rounding, the energy lies between the computed levels of the group, or at or below the first level in the first group.", "quantifier": "every data set, every run of any number of cycles under any schedule, every particle and tracking state", "why_tests_cant": "the energy changes at each collision and the group is stored separately; a stale group shows only after particular sequences of collisions and crossings", "anchors": ["fastiron/src/simulation/mc_segment_outcome.rs::outcome", "fastiron/src/simulation/collision_event.rs::collision_event", "fastiron/src/simulation/cycle_tracking.rs::cycle_tracking_guts"]}
{"id": "C56", "title": "Survivors of a cycle stand exactly at census and age by the time step", "statement": "After any number of cycles no particle is left to process or in the extra storage; every remaining particle ended its tracking with a census event, has no time left to census, and a particle that survives a further cycle is older by exactly the time step.", "quantifier": "every run of any number of cycles under any schedule, over the reals for the times", "why_tests_cant": "needs the whole history of every particle under every schedule", "anchors": ["fastiron/src/simulation/cycle_tracking.rs::cycle_tracking_guts", "fastiron/src/simulation/mc_segment_outcome.rs::outcome", "fastiron/src/particles/particle_container.rs::ParticleContainer"]}
{"id": "C57", "title": "Tracking does not change weights and fission neutrons carry the weight of their parent", "statement": "From the moment a particle is prepared to the moment it leaves the tracking, its weight is unchanged, and every particle it gives birth to has the same weight.", "quantifier": "every data set and every tracking of a particle, of any number of segments", "why_tests_cant": "a particle can undergo arbitrarily many events in a cycle", "anchors": ["fastiron/src/simulation/cycle_tracking.rs::cycle_tracking_guts", "fastiron/src/simulation/collision_event.rs::collision_event"]}
{"id": "C58", "title": "Sourced particles are spread evenly over their cell", "statement": "The position of a sourced particle is picked in one of the twenty-four tetrahedra of its cell, chosen with equal shares by the first draw; all have the same volume. In the tetrahedron the three next draws are folded six to one onto the barycentric coordinates by volume-preserving maps. The numbers of generator states that pick two tetrahedra differ from the exact share by at most 2^13 out of 2^64.", "quantifier": "every validated mesh of one unit, every cell, every generator state", "why_tests_cant": "uniformity is a statement about all draws; samples only estimate it", "anchors": ["fastiron/src/simulation/mct.rs::generate_coordinate_3dg", "fastiron/src/particles/mc_particle.rs", "fastiron/src/utils/mc_rng_state.rs::rng_sample"]}
{"id": "C59", "title": "Population control follows its rules and keeps the expected weight", "statement": "After sourcing, a cycle whose split factor is below one keeps exactly the particles that survive both games of Russian roulette, in order; with a factor of one nothing changes; with a larger factor every particle is replaced by its family of copies and those that survive the low-weight game remain. The counters count exactly the particles removed and added. For uniform draws each of the three leaves the expected weight unchanged, and the factor aims at no more than the requested number of particles. A factor of one or less adds no particle; with a larger factor f every particle becomes floor(f) or floor(f)+1 particles before the low-weight game.", "quantifier": "every particle list, split factor, cut-off and source weight", "why_tests_cant": "the outcome depends on the draws of every particle and on real-valued factors", "anchors": ["fastiron/src/main.rs::cycle_process", "fastiron/src/particles/particle_container.rs::regulate_population", "fastiron/src/particles/particle_container.rs::split_population", "fastiron/src/simulation/population_control.rs::compute_split_factor"]}
{"id": "C60", "title": "A run on a valid input never panics", "statement": "When the parameters pass the validation and make physical sense (one unit, positive sizes and time step, every cell in some region, at least ten particles per cell, energies up to 20 covered, masses above one, no negative cross-section, fewer than four neutrons per fission, at least one cell that emits), the initialisation succeeds on any machine and no execution of the run stops on a panic: no index out of bounds, no failed assertion or unwrap, no division by zero, no unreachable code, in synchronisation, population control or tracking, under any schedule.", "quantifier": "every valid input, hash-map order, number of threads, chunk size, interleaving and number of cycles", "why_tests_cant": "a panic may need one draw in 2^64, a rare interleaving or a particular mixture of settings", "anchors": ["fastiron/src/main.rs::run", "fastiron/src/init.rs", "fastiron/src/simulation/cycle_tracking.rs", "fastiron/src/simulation/population_control.rs", "fastiron/src/particles/particle_container.rs::process_particles"]}
{"id": "C61", "title": "The atomic instructions give what the atomic operations promise", "statement": "At the level of single atomic instructions (a flux update is a relaxed load followed by weak compare-and-exchange attempts that may fail for no reason; a load of the cached cross-section may return any value the entry held since the workers started), a multi-threaded run has exactly the results it has with indivisible additions and up-to-date loads: no contribution to the flux is lost or counted twice, particles and counters are those of the reference, no worker panics and all can finish.", "quantifier": "every problem whose reference run succeeds, number of threads, chunk size, interleaving of instructions, stale value returned and spurious failure", "why_tests_cant": "lost updates and stale reads depend on timing and on the memory model of the processor", "anchors": ["fastiron/src/simulation/cycle_tracking.rs::cycle_tracking_function", "fastiron/src/simulation/mc_segment_outcome.rs::outcome", "fastiron/src/particles/particle_container.rs::process_particles", "fastiron/src/data/tallies.rs::ScalarFluxDomain", "fastiron/src/montecarlo.rs::XSCache"]}
{"id": "C62", "title": "A particle is in the cell it is attributed to", "statement": "In a single-unit run on a valid input, every particle is at all times inside the closed box of the cell it is attributed to: a sourced particle starts in its cell, each segment stays in that cell from its start to its end, a facet crossing hands the particle to a cell whose closed box contains the crossing point, and collisions, population control and the change of cycle do not move it. Known exceptions, which only a particle about to leave its cell from a face can meet: its ray also reaches another face within 1e-9 of their common edge, or it has made more than ten million segments.", "quantifier": "every valid input, cell, position, direction, draw, schedule and number of cycles", "why_tests_cant": "the position is a real triple after a history of any length; the exceptions need a ray within 1e-9 of an edge or ten million segments", "anchors": ["fastiron/src/simulation/mct.rs::nearest_facet", "fastiron/src/simulation/mct.rs::generate_coordinate_3dg", "fastiron/src/simulation/mc_facet_crossing_event.rs::facet_crossing_event", "fastiron/src/simulation/mc_segment_outcome.rs::outcome", "fastiron/src/geometry/mc_domain.rs"]}
{"id": "C63", "title": "The problem of a run is the one that was given, or the built-in one", "statement": "When the input file defines at least one region, the regions, materials and cross-section curves of the run are exactly those of the file (regions from the last to the first, first definition of a name). When there is no file, or a file without regions, the built-in problem is added: one brick over the whole mesh, made of the built-in source material with the flat curve, which replace definitions of the same names and leave the others as they were. The built-in brick holds the centre of every cell, whatever the sizes of the mesh.", "quantifier": "every command line, input file, number type, hash-map order and, for the last part, mesh size over the reals", "why_tests_cant": "depends on which blocks a file has, in any number and order", "anchors": ["fastiron/src/parameters.rs::Parameters::get_parameters", "fastiron/src/parameters.rs::Parameters::supply_defaults", "fastiron/src/utils/input.rs::parse_input_file"]}
{"id": "C64", "title": "A run starts with the settings it was given, and from nothing", "statement": "When the initialisation goes through, the run has the time step, the source energies, the number of particles, of cycles and of energy groups, the low-weight cutoff, the options and the execution settings of the parameters; it has no particle, every tally, counter and cached cross-section is zero, and there are at least ten particles asked per cell. The program stops with a message, without a panic and before it builds anything, exactly when fewer than ten particles are asked per cell. Two settings that pass the validation stop every start-up that would otherwise go through with a panic: a kind of border that is none of reflect, escape and octant, and the largest 64-bit seed.", "quantifier": "every set of parameters, number type, machine and hash-map order", "why_tests_cant": "the settings are read in some forty places and combine freely", "anchors": ["fastiron/src/init.rs::init_mcdata", "fastiron/src/init.rs::init_mcunits", "fastiron/src/init.rs::init_results", "fastiron/src/main.rs::main", "fastiron/src/montecarlo.rs"]}
{"id": "C65", "title": "Ranges of the particles with floating-point rounding", "statement": "With the rounding of f32 or f64, every particle that exists at the end of a cycle has a finite energy between zero and the upper bound of the source energies, a time to census that is not negative, an energy group, a cell and a facet that exist. This asks that the input numbers and the tables computed from them are finite and in order, and that (max - min) + min, as rounded, is not above max; without the last condition a sourced particle can have an energy above the bound and a group past the last one.", "quantifier": "every arithmetic that follows the rules of IEEE 754, every input that meets the conditions, number of cycles, threads, interleaving and hash-map order", "why_tests_cant": "rounding errors depend on every digit of the inputs and of the draws; the bad draw happens once in millions", "anchors": ["fastiron/src/simulation/population_control.rs::source_now", "fastiron/src/data/nuclear_data.rs::NuclearData::get_energy_groups", "fastiron/src/simulation/cycle_tracking.rs", "fastiron/src/particles/mc_particle.rs"]}
{"id": "C66", "title": "No panic with floating-point rounding", "statement": "With the rounding of f32 or f64, the start-up of a run gives a result and no execution of the run stops on a panic: no index out of range, no failed conversion from float to integer, no failed assertion. It holds when the numbers that the program computes from its input are finite and in order; ranges of the numbers of the input are given for which they are, and which include curves that are too large for f32 before they are scaled; the built-in problem meets these conditions in both formats.", "quantifier": "every arithmetic that follows the rules of IEEE 754, every input that meets the conditions, number of threads, chunk size, interleaving and hash-map order", "why_tests_cant": "a conversion that overflows or a negative zero appears only for particular digits of the inputs and draws, in long runs", "anchors": ["fastiron/src/main.rs::main", "fastiron/src/init.rs", "fastiron/src/simulation", "fastiron/src/geometry/mc_domain.rs", "fastiron/src/constants.rs::CustomFloat"]}
{"id": "C67", "title": "A run is reproducible", "statement": "Two inputs that describe the same problem give the same run: the order in which materials and cross-sections are given, the number of threads, the chunk size, the binding of the threads and the machine do not matter. They are refused together and start together; for the same execution settings and schedule every state is equal to the last bit, apart from the internal numbers of the materials, and one can panic if and only if the other can. Between different settings and schedules the reported cycles, counters, source weight and energy spectrum are equal, and the particles are equal up to their order. Moving the blocks of materials or cross-sections of an input file describes the same problem, if their names differ.", "quantifier": "every pair of inputs that describe the same problem, number type, hash-map order of the names, machine, thread setting and interleaving", "why_tests_cant": "the numbers of the materials depend on the hash map and reach every cross-section lookup; a test compares a few orders and schedules", "anchors": ["fastiron/src/init.rs::init_nuclear_data", "fastiron/src/parameters.rs::Parameters", "fastiron/src/geometry/mc_domain.rs::find_material", "fastiron/src/data/material_database.rs", "fastiron/src/main.rs::main"]}
{"id": "C68", "title": "The verdicts of the benchmark checks mean what they print", "statement": "A standard run is not checked. After a benchmark run all four checks are made without a panic. The check for lost particles passes. The event check counts the segments that ended on a facet, and with collisions it passes exactly when this number differs from that of the collisions by at most one percent; without a collision it fails. With reactions of each kind, the ratio check passes exactly when the absorptions, scatterings and fissions, each divided by its expected share, agree within the tolerance of the benchmark. Without any reaction the ratio check passes, in f32 and f64, because every ratio is not-a-number.", "quantifier": "every run, thread setting and interleaving; every set of counters; every binary format not smaller than f32 for the cases with a zero divisor", "why_tests_cant": "the verdict depends on counters of whole runs; the cases with not-a-number need a run without a reaction", "anchors": ["fastiron/src/utils/coral_benchmark_correctness.rs::coral_benchmark_correctness", "fastiron/src/utils/coral_benchmark_correctness.rs::balance_ratio_test", "fastiron/src/utils/coral_benchmark_correctness.rs::balance_event_test", "fastiron/src/utils/coral_benchmark_correctness.rs::missing_particle_test"]}
{"id": "C69", "title": "The files of a run tell what happened in it", "statement": "When tables are asked for, the report of the tallies has its line of names and exactly one line for each cycle, in order, whatever the file held before: the line of a cycle has the counters and flux of this cycle and the times spent in this cycle, and the lines account for all the particles from cycle to cycle. The post-processing reads back the same columns, and for each section the statistics of the times of the cycles. When tables are not asked for, no table is touched. The energy spectrum is written exactly when a name is given, with one line for each energy level in which the level, its energy and its count can be read, and the counts add up to the particles left at the end of the cycles. Writing never panics. The efficiency of a section lies between 0 and 100 percent and the figure of merit is the number of segments per second of tracking. A run of no cycle leaves an old report of the tallies in place.", "quantifier": "every input that starts, run, interleaving, history of the clock without overflow and former content of the files", "why_tests_cant": "the lines depend on whole runs, on the clock and on files of earlier runs", "anchors": ["fastiron/src/data/tallies.rs::Tallies::print_summary", "fastiron/src/data/energy_spectrum.rs::EnergySpectrum::print_spectrum", "fastiron/src/utils/mc_fast_timer.rs::MCFastTimerContainer::cumulative_report", "fastiron/src/main.rs::game_over", "fastiron/src/main.rs::cycle_sync", "fastiron-stats/src/structures/raw.rs"]}
{"id": "C70", "title": "Directions, energies and times are drawn with the intended distributions", "statement": "The direction of a sourced particle has no preferred orientation, and so has the direction of every particle that leaves a scattering or a fission, whatever the direction before it: the chance to fall in a set of directions is kept by every change of axes, and the component along any axis is uniform between -1 and 1. The energy of a sourced particle is uniform over the energy range of the problem and its time left uniform over the time step. The energy after a scattering on a nucleus of mass A is uniform between E(1 - 1/A) and E. The energy of a fission neutron lies between 5 and 20 and is at most x with the chance 2 sqrt(x/20) - 1. Each quantity is computed from its own numbers of the generator, in a fixed order.", "quantifier": "every particle, seed, cell, problem, mass, unit direction before the collision, and set of directions; uniform independent numbers", "why_tests_cant": "a distribution over a continuum; a test can sample some directions but not show that none is preferred", "anchors": ["fastiron/src/particles/mc_particle.rs::MCParticle::sample_isotropic", "fastiron/src/particles/mc_particle.rs::MCParticle::update_trajectory", "fastiron/src/particles/mc_particle.rs::MCParticle::rotate_direction", "fastiron/src/particles/mc_particle.rs::MCParticle::sample_collision", "fastiron/src/simulation/population_control.rs::source_now"]}
{"id": "C71", "title": "Every configuration can be written in an input file and is read back exactly", "statement": "An integer of the input file is accepted exactly when it is a decimal notation, with or without a plus sign, of a number below 2^64, and is then that number. For any parameters whose names are plain texts and whose integers fit in 64 bits, the file that lists their values block by block is accepted, and a run started with it uses exactly these parameters: the same simulation settings, the same geometries in the same order, the same materials and cross-sections by name. Only the settings that have no key in the file (csv output, chunk size, threads, thread binding, units) come from the command line.", "quantifier": "every text, integer, set of parameters, hash order, command line, reader and writer of numbers and YAML that agree with each other", "why_tests_cant": "a round trip over all configurations; a test writes and reads a few files", "anchors": ["fastiron/src/utils/input.rs::parse_input_file", "fastiron/src/parameters.rs::Parameters::get_parameters", "fastiron/src/parameters.rs::Parameters::update_simulation_parameters", "fastiron/src/parameters.rs::GeometryParameters::from_block", "fastiron/src/parameters.rs::MaterialParameters::from_block", "fastiron/src/parameters.rs::CrossSectionParameters::from_block"]}
{"id": "C72", "title": "Bound threads are spread evenly over the units of one NUMA node", "statement": "When threads are bound, thread k goes to the processing unit number k mod n of the n units below the first NUMA node of the machine, in the order of the machine. Two of these units never differ by more than one thread, no unit gets two threads while there are at least as many units as threads, and no other unit of the machine gets a thread. The program stops exactly when the machine shows no object at the depth asked for or no unit below the first one.", "quantifier": "every topology of the machine, every number of threads and every thread", "why_tests_cant": "tests run on one machine; the statement is about all topologies and numbers of threads", "anchors": ["fastiron/src/main.rs::bind_threads", "fastiron/src/main.rs::has_ancestor"]}
{"id": "C73", "title": "Parallel iteration over particles misses nothing and repeats nothing", "statement": "However the work on a collection of particles is split between tasks, the tasks together treat consecutive chunks of the requested size (the last one may be shorter), each exactly once and in order, particle i being at place i mod size of chunk i div size, and the splitting never panics; chunks of size 0 are refused. The counters the tasks return add up to the sum over the chunks. A parallel tracking therefore has the same possible results for all ways of splitting.", "quantifier": "every collection, every chunk size, every sequence of splitting decisions, every interleaving", "why_tests_cant": "the decisions of the scheduler depend on the load of the machine and cannot be enumerated by tests", "anchors": ["fastiron/src/particles/particle_collection.rs::ParticleProducerMut::split_at", "fastiron/src/particles/particle_collection.rs::ParParIterMut", "fastiron/src/particles/particle_container.rs::ParticleContainer::process_particles", "fastiron/src/data/tallies.rs::Balance"]}
{"id": "C74", "title": "Particles collide where their optical depth is used up, so that flights follow the Beer-Lambert law", "statement": "Along a flight without collision, through any number of cells, reflections and cycles, the number of mean free paths left is the number drawn less the sum over the legs of length times macroscopic cross-section; the particle collides exactly where this sum reaches the number drawn. With the program's draw, the probability to make a flight without collision is exp(-optical depth of the flight): for a uniform real number exactly, and over the 2^64 states of the generator up to 2^-52. The mean of the length travelled in a leg, which the flux tally adds up, is the integral along the leg of the probability to get there.", "quantifier": "every particle, every flight of any number of legs, every number of mean free paths, every state of the generator, every valid input", "why_tests_cant": "it is a law about the distribution of flights of any length through any mesh; tests see a finite number of particles", "anchors": ["fastiron/src/simulation/mc_segment_outcome.rs::outcome", "fastiron/src/simulation/cycle_tracking.rs::cycle_tracking_function", "fastiron/src/particles/mc_particle.rs::MCParticle::sample_num_mfp", "fastiron/src/simulation/macro_cross_section.rs::weighted_macroscopic_cross_section"]}
{"id": "C75", "title": "The flux depends on the schedule by no more than the rounding of its additions", "statement": "With the arithmetic of f32 and f64, each entry of the flux tally and the total flux reported for a cycle are, when finite, the exact sum of the contributions of the segments of the cycle, up to a relative error of (1 + 2^-p)^n - 1, with p the number of digits and n the number of additions. Two runs of the same problem with any policies, numbers of threads, chunk sizes and interleavings report total fluxes that differ by at most twice that. A sum that leaves room for this error overflows in no order. The bound is about what single precision gives: in a sum of ones, those after the first 2^24 are lost.", "quantifier": "every binary format not smaller than f32, every list of contributions and every order, every cycle of every run, every two execution policies and schedules", "why_tests_cant": "the schedules and the orders of additions are not enumerable; a test compares a few runs with a tolerance that it has to guess", "anchors": ["fastiron/src/simulation/cycle_tracking.rs::cycle_tracking_function", "fastiron/src/data/tallies.rs::Tallies::scalar_flux_sum", "fastiron/src/data/tallies.rs::ScalarFluxDomain", "fastiron/src/main.rs::cycle_sync"]}
{"id": "C76", "title": "A run comes to its end", "statement": "Nothing in the code bounds the number of segments of a particle nor the number of generations of fission products in a cycle. On a valid input, as long as no particle meets one of three exceptional cases (the length of a flight drawn as 0 or 1 by the generator; displacement by the rescue of particles with more than ten million segments while on a face and heading outwards; a collision exactly at the end of the cycle, or where the cross-section is zero), the number of segments of a particle in a cycle has a bound that depends on the grid, the time step and the largest cross-section only, the generations of fission products come to an end, and so does every execution of the run, with any number of threads and any chunk size.", "quantifier": "every valid input, every cycle, every particle and its descendants, every execution policy, number of threads, chunk size and interleaving", "why_tests_cant": "a test that ends shows that one run ends; the bound must hold for every geometry, direction and history of collisions", "anchors": ["fastiron/src/simulation/cycle_tracking.rs::cycle_tracking_function", "fastiron/src/simulation/mc_segment_outcome.rs::outcome", "fastiron/src/simulation/mct.rs::nearest_facet", "fastiron/src/main.rs::cycle_process"]}
{"id": "C77", "title": "The cells of the grid are shared between the units", "statement": "When the mesh is divided between several units, each with a root cell, every unit grows from its root through touching cells. Its cells are those it meets that are nearest to its root, they get the numbers 0, 1, 2, … without repetition, and the unit ends with the unit and the number of every cell of another unit across a face from one of its own, whatever the order in which hash maps are iterated. No cell belongs to two units. With two units every cell belongs to one of them. A particle that crosses a facet towards a cell of its own or of another unit is put in the domain and cell and on the facet of the other side, which must all be known.", "quantifier": "every grid, every number of units (two for the last sentence), every choice of root cells, every iteration order of the hash maps", "why_tests_cant": "the unit test builds one partition of one grid; the numbers a unit receives depend on the order of construction of the others, on the shape of the regions and on the iteration order of the maps", "anchors": ["fastiron/src/geometry/mesh_partition.rs::build_mesh_partition", "fastiron/src/geometry/mesh_partition.rs::add_nbrs_to_flood", "fastiron/src/geometry/mesh_partition.rs::build_cell_idx_map", "fastiron/src/init.rs::init_mesh", "fastiron/src/utils/comm_object.rs::CommObject", "fastiron/src/simulation/mc_facet_crossing_event.rs::facet_crossing_event"]}
{"id": "C78", "title": "With rounding, nothing gets a wrong sign in flight and the flux error is relative", "statement": "With the rounding of f32 or f64, for every segment that a run can perform: the remaining optical path is never negative, so that no collision is forced by it; the distance flown is not negative; the time to census stays between zero and the time step and does not grow; the particle does not get younger. After each cycle every particle has exactly no time left. No weight and no contribution to the flux is ever negative, and the total flux that a cycle reports, when finite, is the exact sum of the contributions of its segments up to a factor between (1-eps)^n and (1+eps)^n, where n counts segments and entries of the tally.", "quantifier": "every input with finite numbers in order whose tables do not overflow, every binary format at least as large as f32 in which reciprocals do not underflow, every number of cycles and threads, every schedule; for the weights and the flux, runs whose numbers of particles fit 64 bits", "why_tests_cant": "rounding errors of either sign occur in every segment; a negative optical path or time by one unit in the last place would appear only for particular numbers, and a test compares one result with a tolerance", "anchors": ["fastiron/src/simulation/mc_segment_outcome.rs::outcome", "fastiron/src/simulation/cycle_tracking.rs", "fastiron/src/particles/mc_particle.rs::MCParticle", "fastiron/src/particles/particle_container.rs::ParticleContainer", "fastiron/src/data/tallies.rs::ScalarFluxDomain"]}
{"id": "C79", "title": "All executions of a run finish together, with the same results", "statement": "When one execution of a run finishes, whatever its execution policy, number of threads, chunk size and interleaving, then the run can finish under every other policy, chunking and schedule, no execution of it fails, and all finished executions have the same reports, counters, spectrum and particles; in exact arithmetic also the same flux, and with rounding the total fluxes that they report for a cycle, when finite, differ at most by the factor ((1+eps)/(1-eps))^n, where n counts the segments of the cycle and the entries of the tally. Nothing is assumed of a sequential reference. The same holds for two input files that describe the same problem, on two machines, whatever the iteration orders of the hash maps.", "quantifier": "every valid input (exact arithmetic) or input with finite numbers in order whose tables do not overflow (rounding), every pair of execution settings, every pair of schedules, any number of cycles; for the flux with rounding, runs whose numbers of particles fit 64 bits", "why_tests_cant": "a failure or a different result under one schedule would have to be met by chance; the statement compares every pair of executions, of which there are unboundedly many", "anchors": ["fastiron/src/main.rs::run", "fastiron/src/simulation/cycle_process.rs::process_particles", "fastiron/src/simulation/cycle_tracking.rs", "fastiron/src/utils/mc_processor_info.rs::ExecPolicy"]}
{"id": "C80", "title": "With rounding, the centre of a cell is found in that cell, and cells and sourced particles keep distinct identifiers", "statement": "With the floating-point numbers of the program, the centre computed for a cell as the mean of its fourteen points is located in that same cell, although every operation rounds; so is the centre computed from the lower corner, and with it the cell around which the unit is built, unless one of the three numbers drawn for it is within 2^-13 of one. Hence the cells of a started run carry the numbers of the cells of the grid, each one exactly once and with an empty source counter, and all the particles that the source creates have distinct identifiers and distinct seeds as long as the run has sourced at most 2^32 particles.", "quantifier": "every arithmetic that rounds to nearest with at least 24 bits (f32, f64), every grid of at most 1024 cells along each axis with cells of side between 2^-20 and 2^20, every cell, every run that starts, every execution and number of cycles", "why_tests_cant": "whether a truncated quotient lands on the right integer depends on the last digit of each intermediate result, for each size of the mesh and each cell", "anchors": ["fastiron/src/geometry/global_fcc_grid.rs::which_cell", "fastiron/src/geometry/global_fcc_grid.rs::node_coord_from_tuple", "fastiron/src/geometry/mc_domain.rs::MCDomain::new", "fastiron/src/simulation/population_control.rs::source_now"]}
{"id": "C81", "title": "A run on a valid input keeps every particle, collision and source sound from its start to its end", "statement": "For a run started from a valid input, with nothing assumed but the input: every particle that the run can meet has a unit direction, an energy above zero and at most eMax, a speed below that of light, an energy group and a cell that exist, a time to census between zero and the time step, and no negative age or optical path; every particle between two cycles stands at census, in the one energy group that holds its energy, with a positive weight; every collision uses the positive sum of the cross-sections of the material of the cell, and the reaction is the one in whose interval the draw falls; and the source of every cycle gives each cell its rounded-down share, a tenth of the target at most, missed by less than one particle per cell, while the split factor aims at no more than the target. Without load balancing a cycle tracks fewer than twice the target of particles, unless those left by the cycle before and the requested sources already exceed the target, in which case no particle is added to them.", "quantifier": "every valid input, machine, order of the hash maps, number of threads, chunk size, interleaving and number of cycles", "why_tests_cant": "the single steps are checked on states that someone wrote down; that a run only ever reaches states of that kind is a statement about all histories and schedules", "anchors": ["fastiron/src/main.rs::main", "fastiron/src/init.rs::init_mcdata", "fastiron/src/simulation/cycle_tracking.rs::cycle_tracking_function", "fastiron/src/simulation/collision_event.rs::collision_event", "fastiron/src/simulation/population_control.rs::source_now"]}
{"id": "C82", "title": "The mean number of neutrons out of a collision is that of the material", "statement": "The neutrons that leave a collision number one after a scattering, none after an absorption, and the rounded-down sum of the mean yield and a draw after a fission, where the first draw selects the reaction and the next one decides on the yield. For uniform draws the mean of that number is (scattering + sum of fission times mean yield) over the total cross-section of the material of the cell in the energy group of the particle, so collisions multiply the neutrons exactly when the fission surplus exceeds the absorption.", "quantifier": "every material, energy group and pair of draws; and every collision that a run on a valid input can meet, for every schedule and number of cycles", "why_tests_cant": "a mean over all draws is approached by no finite sample, and a small bias of it changes whether the population grows or dies out over many cycles", "anchors": ["fastiron/src/simulation/collision_event.rs::collision_event", "fastiron/src/particles/mc_particle.rs::sample_collision"]}
{"id": "C83", "title": "A particle that finds no facet is brought to the centre of its cell", "statement": "Looking for the next facet never changes anything of a particle but its position. If there is a facet ahead the particle stays where it is. If there is none, or if the particle is on a facet after more than ten million segments, it is brought towards the centre of its cell until between 0.00564 and 0.00565 percent of the way is left. In both cases the search ends without failure and a particle which was in its cell still is. In the second case the search still answers that the particle is on the facet, so that a particle that crosses an inner face then is in the middle of the cell it has just left.", "quantifier": "every mesh and particle for the move; every particle in its cell, in the mesh of every single-unit problem, for the rest", "why_tests_cant": "the move is made of a thousand steps and only happens after ten million segments of one particle, which no test reaches", "anchors": ["fastiron/src/simulation/mct.rs::nearest_facet", "fastiron/src/simulation/mct.rs::mct_nf_3dg", "fastiron/src/simulation/mct.rs::check_nearest_validity"]}
{"id": "C84", "title": "The seed of the input and the numbers of the cells do not change the results", "statement": "Two runs on one unit whose inputs differ only in the seed and in the settings of the threads agree in their results: reported steps and counters, cumulative counters, energy spectrum, source weight and population, and, up to their order, the same cells and the same particles, each in the same cell. The cells only get other numbers. This holds for every order in which the hash maps give the cells. If additions are exact the whole reports, with the total flux, are the same.", "quantifier": "every arithmetic, every input, every pair of seeds, every order of the hash maps, every setting of the threads and every schedule, for runs in which each particle is tracked to its end; the sum of what the cells emit must come out the same in both orders, which is proved where additions can be exchanged", "why_tests_cant": "a test compares two seeds; the seed decides the numbering of every cell and so the order of every loop over cells, for all meshes", "anchors": ["fastiron/src/init.rs::init_mesh", "fastiron/src/init.rs::initialize_centers_rand", "fastiron/src/geometry/mesh_partition.rs::MeshPartition", "fastiron/src/geometry/mc_domain.rs::MCDomain", "fastiron/src/simulation/population_control.rs::source_now"]}
{"id": "C85", "title": "Nothing outruns light, and the reported flux is bounded by it", "statement": "In exact arithmetic, what a particle flies in a cycle is never longer than the way of light in the time by which it gets older, and in one cycle it gets older by at most the time step. The distance between any state of a particle and any later state of it or of its offspring, however many cycles, collisions, fissions and splittings later, is at most the way of light in the time between them (unless the flight met one of the two exceptional situations on the edge of a cell that C62 names). So the flux reported for a cycle, under any schedule, is not negative and at most light's way in a time step, times the largest weight of the tracked particles, times the number of particles that enter the tracking or are reported as produced in it.", "quantifier": "all valid inputs, hash orders, machines, schedules, cycles and histories of a particle", "why_tests_cant": "A test looks at the flux or the path of some runs; the bound must hold for every energy, draw, number of segments and schedule, and a small error in the time used by a segment would only show as a flux that is slightly wrong.", "anchors": ["fastiron/src/particles/mc_particle.rs::MCParticle::get_speed", "fastiron/src/particles/mc_particle.rs::MCParticle::move_particle_along_segment", "fastiron/src/simulation/mc_segment_outcome.rs::outcome", "fastiron/src/simulation/cycle_tracking.rs", "fastiron/src/data/tallies.rs::Tallies::scalar_flux_sum"]}
{"id": "C86", "title": "A longer run begins with the shorter one", "statement": "The number of cycles of the input decides only where the run stops. The start-up does not depend on it. Every finished run of N cycles has passed, after n < N of them, through the very state in which the run of n cycles ends, and the reports of this shorter run are the first n reports of the longer one. When one execution of the longer run finishes, all executions of the shorter one finish without panic, under any threads and schedule, with these same reports: the flux included in exact arithmetic, all counters with rounding. A panic that can stop the shorter run can stop the longer one.", "quantifier": "all inputs, numbers of cycles n and N, number types, execution settings and schedules", "why_tests_cant": "A test compares two lengths of one problem; a use of the number of cycles anywhere in the start-up, the source or the tracking, for example in the last cycle only, would show for some lengths and problems and not for others.", "anchors": ["fastiron/src/main.rs::run", "fastiron/src/main.rs::cycle_sync", "fastiron/src/main.rs::cycle_process", "fastiron/src/init.rs::init_mcdata"]}
{"id": "C87", "title": "Particles leave through the borders that let them, and only through these", "statement": "With reflecting borders the number of escaped particles is zero in every cycle and in total, so all losses are absorptions, fissions and the two roulettes. With any setting of the borders, a particle that leaves the problem does so at a face whose boundary condition is to escape and is counted once; a particle whose direction changes at a facet stays where it is, at a face whose condition is to reflect. On a valid input a facet lets a particle out, reflects it or passes it to the cell on the other side exactly as the position of its face and the boundary condition say.", "quantifier": "all inputs on which the program starts, number types, execution settings and schedules; for the exact description of each facet, all valid inputs", "why_tests_cant": "A run in which nothing escapes shows this for the facets that were met; a wrong event on one facet of one cell needs a particle to reach it.", "anchors": ["fastiron/src/geometry/mc_domain.rs::get_boundary_conditions", "fastiron/src/geometry/mc_domain.rs::make_facet", "fastiron/src/geometry/mc_domain.rs::build_cells", "fastiron/src/simulation/mc_facet_crossing_event.rs::facet_crossing_event", "fastiron/src/simulation/cycle_tracking.rs::cycle_tracking_function"]}
{"id": "C88", "title": "The analysis program saves the tables that its options ask for", "statement": "A scaling study whose runs have all left their report saves two tables with one line for each run, in the order of the runs; the line of a run holds its number of threads, the average times of its sections in microseconds and the ideal time that follows from the first run. A report that is missing or cannot be read ends the study before any table is touched. The comparison of two runs has a line for each section with the times of the first report before those of the second, and the table of correlations holds those of the quantities that its lines and columns name. Several studies on one command line do what they would do alone, one after the other, up to the first that panics; the tables asked for have different names and each is created once. Plots follow the tables of a study of two runs or more; a single run cannot be plotted, the program panics after the tables and the next study is lost.", "quantifier": "all command lines, files, numbers of runs and threads, formats of numbers that can be read back, and number types", "why_tests_cant": "A test has a few files; the statement is about any set of files, present or not, and any combination of options.", "anchors": ["fastiron-stats/src/main.rs::main", "fastiron-stats/src/command_line.rs::Cli", "fastiron-stats/src/structures/processed.rs::ScalingResults"]}
{"id": "C89", "title": "Volumes and materials of the cells survive floating-point rounding", "statement": "With the rounding of f32 or f64 and up to 1024 cells along each axis, the volume of every cell, in every cycle, is a finite number within an eighth of the exact volume, which is the size of the problem over the numbers of cells. When the regions of the input are bricks whose bounds are further from the exact centre of a cell than 1/200 of the size of a cell, the material of that cell is that of the first region of the list that contains its exact centre.", "quantifier": "every arithmetic that follows the rules of IEEE 754, every input of at most 1024 cells along each axis with sizes between 2^-10 and 2^20 that meets the conditions to start, cell, cycle, number of threads, interleaving and hash-map order", "why_tests_cant": "The error grows with the distance of a cell from the origin and depends on the last digits of the sizes; a test covers a few meshes, the statement covers every mesh and both formats.", "anchors": ["fastiron/src/geometry/mc_domain.rs::MCDomain::cell_volume", "fastiron/src/geometry/mc_domain.rs::MCDomain::find_material", "fastiron/src/geometry/global_fcc_grid.rs::GlobalFccGrid::node_coord_from_tuple"]}
{"id": "C90", "title": "Vectors are those of the Euclidean space", "statement": "In exact arithmetic the sum, difference, multiples, scalar product, length and distance of vectors, and the sum of a list of them, are those of the Euclidean space of dimension three. The vector product is orthogonal to both factors, changes sign with their order, and its squared length is that given by the lengths and the scalar product. Dividing a vector is refused exactly when the divisor is zero, and is otherwise the inverse of multiplying it. With rounding, the scalar product of a vector with itself stays within a millionth of the square of its length, when the coordinates are zero or of an ordinary size (2^-30 to 2^29).", "quantifier": "every pair of vectors, scalar and list of vectors", "why_tests_cant": "the unit tests use a few vectors; the geometry of the mesh relies on the laws for all of them", "anchors": ["fastiron/src/data/mc_vector.rs::MCVector"]}
