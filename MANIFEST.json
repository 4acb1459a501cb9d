{
 "claims": [
  {
   "property": "C01",
   "status": "proved",
   "theorems": [
    "C01_sample_range",
    "C01_documented_range_violated",
    "C01_conversion_is_nearest"
   ],
   "note": "the documented half-open interval is proved false: exactly 1024 seeds give 1"
  },
  {
   "property": "C02",
   "status": "proved",
   "theorems": [
    "C02_full_period",
    "C02_visits_all"
   ],
   "note": ""
  },
  {
   "property": "C03",
   "status": "proved",
   "theorems": [
    "C03_spawn_bijective"
   ],
   "note": ""
  },
  {
   "property": "C04",
   "status": "proved",
   "theorems": [
    "C04_split_distinct",
    "C04_fission_distinct"
   ],
   "note": "for every Flt T"
  },
  {
   "property": "C05",
   "status": "proved",
   "theorems": [
    "C05_sourced_distinct",
    "C05_history",
    "C05_cell_numbers",
    "C05_started"
   ],
   "note": "the first two for every Flt T, every schedule and number of cycles, with the numbering of the cells as hypothesis; `C05_started` has no hypothesis but the input (exact arithmetic); with rounding see C80"
  },
  {
   "property": "C06",
   "status": "proved",
   "theorems": [
    "C06_cycle_balance",
    "C06_no_particle_lost"
   ],
   "note": "for every Flt T, every policy and schedule"
  },
  {
   "property": "C07",
   "status": "proved",
   "theorems": [
    "C07_counters_chain"
   ],
   "note": "for every Flt T, every number of cycles"
  },
  {
   "property": "C08",
   "status": "proved",
   "theorems": [
    "C08_event_counters",
    "C08_no_underflow"
   ],
   "note": "for every Flt T"
  },
  {
   "property": "C09",
   "status": "proved",
   "theorems": [
    "C09_run_schedule_independent",
    "C09_batch_schedule_independent",
    "C09_no_schedule_panics",
    "C09_no_failure"
   ],
   "note": "every Flt T with zero not positive; hypotheses: the reference computation (Spec/Direct) succeeds and the tables have one value per group"
  },
  {
   "property": "C10",
   "status": "proved",
   "theorems": [
    "C10_cache_transparent",
    "C10_cache_contents_irrelevant",
    "C10_violated_above_last_level"
   ],
   "note": "transparency proved for groups within the tables; violated above the last level, witness theorem included"
  },
  {
   "property": "C11",
   "status": "proved",
   "theorems": [
    "C11_flux_is_sum",
    "C11_flux_is_sum_exact",
    "C11_reports_schedule_independent",
    "C11_reset",
    "C11_cycle_flux",
    "C11_cycle_report"
   ],
   "note": "order of additions is schedule dependent; equality in exact arithmetic"
  },
  {
   "property": "C12",
   "status": "proved",
   "theorems": [
    "C12_cells",
    "C12_nodes",
    "C12_nodes_of_cell"
   ],
   "note": "Cell and node numbering are mutually inverse and the eight corners of a cell are distinct nodes of the grid."
  },
  {
   "property": "C13",
   "status": "proved",
   "theorems": [
    "C13_locate",
    "C13_center",
    "C13_upper_x",
    "C13_upper_y",
    "C13_upper_z"
   ],
   "note": "Over the reals. The property fails on the upper faces of the box: C13_upper_x, C13_upper_y and C13_upper_z prove what is returned there."
  },
  {
   "property": "C14",
   "status": "proved",
   "theorems": [
    "C14_faces",
    "C14_six_faces"
   ],
   "note": ""
  },
  {
   "property": "C15",
   "status": "proved",
   "theorems": [
    "C15_facets_match",
    "C15_z_violated"
   ],
   "note": "Over the reals, single-unit runs. Holds on x and y faces; on z faces the property fails and C15_z_violated proves it."
  },
  {
   "property": "C16",
   "status": "proved",
   "theorems": [
    "C16_mesh",
    "C16_center",
    "C16_center_outside",
    "C16_draw_one_violated"
   ],
   "note": "Over the reals. Holds when the random centre is inside the grid; a draw of exactly 1 on z puts it outside and C16_draw_one_violated gives a seed with 1001 cells."
  },
  {
   "property": "C17",
   "status": "proved",
   "theorems": [
    "C17_facet_planes",
    "C17_triangle",
    "C17_aligned"
   ],
   "note": "Over the reals, single-unit runs for the facets; C17_triangle is for any three points."
  },
  {
   "property": "C18",
   "status": "proved",
   "theorems": [
    "C18_volumes"
   ],
   "note": "Over the reals, single-unit runs."
  },
  {
   "property": "C19",
   "status": "proved",
   "theorems": [
    "C19_position_in_cell"
   ],
   "note": "Over the reals, single-unit runs."
  },
  {
   "property": "C20",
   "status": "proved",
   "theorems": [
    "C20_isotropic",
    "C20_rotation",
    "C20_scattering",
    "C20_reachable",
    "C20_run"
   ],
   "note": "over the reals; unit facet planes hold for every plane the program builds (plane_new_unit)"
  },
  {
   "property": "C21",
   "status": "proved",
   "theorems": [
    "C21_specular",
    "C21_only_direction"
   ],
   "note": "over the reals"
  },
  {
   "property": "C22",
   "status": "proved",
   "theorems": [
    "C22_segment",
    "C22_outcome",
    "C22_forced"
   ],
   "note": "over the reals, whatever the shared cache answers"
  },
  {
   "property": "C23",
   "status": "proved",
   "theorems": [
    "C23_tracking",
    "C23_census",
    "C23_reachable"
   ],
   "note": "over the reals; positive source energies, masses above 1 and non-negative tables"
  },
  {
   "property": "C24",
   "status": "proved",
   "theorems": [
    "C24_advance",
    "C24_offspring_partial",
    "C24_violated_at_census"
   ],
   "note": "over the reals; the stated exception (offspring born at census) is proved as a violation"
  },
  {
   "property": "C25",
   "status": "proved",
   "theorems": [
    "C25_nearest_facet",
    "C25_interior",
    "C25_normal_zero",
    "C25_normal_violated"
   ],
   "note": "Over the reals, single-unit runs. The facet contains the exit point up to the relative tolerance 1e-9 of the code; the product with the normal that the particle is said to keep is always zero, see finding 37 of DESIGN.md"
  },
  {
   "property": "C26",
   "status": "proved",
   "theorems": [
    "C26_lookup",
    "C26_no_level",
    "C26_unique",
    "C26_levels",
    "C26_any",
    "C26_rounded"
   ],
   "note": "over the reals; C26_any for every number type with at least two levels in any order, C26_rounded for the exact values of the levels in an IEEE arithmetic"
  },
  {
   "property": "C27",
   "status": "proved",
   "theorems": [
    "C27_reachable",
    "C27_run",
    "C27_violated_below_20",
    "C27_violated_light"
   ],
   "note": "over the reals, for every schedule and number of cycles"
  },
  {
   "property": "C28",
   "status": "proved",
   "theorems": [
    "C28_choice",
    "C28_tiling",
    "C28_event",
    "C28_share",
    "C28_share_states",
    "C28_largest_draw",
    "C28_no_end_without_weight"
   ],
   "note": "over the reals"
  },
  {
   "property": "C29",
   "status": "proved",
   "theorems": [
    "C29_sum",
    "C29_same_total",
    "C29_positive",
    "C29_zero_density"
   ],
   "note": "over the reals; non-zero fractions and density, as the program builds them"
  },
  {
   "property": "C30",
   "status": "proved",
   "theorems": [
    "C30_reaction",
    "C30_isotope",
    "C30_few_reactions",
    "C30_zero_divisor"
   ],
   "note": "over the reals"
  },
  {
   "property": "C31",
   "status": "proved",
   "theorems": [
    "C31_yield",
    "C31_five_or_more_stops",
    "C31_invalid_stops",
    "C31_mean",
    "C31_mean_over_states"
   ],
   "note": "over the reals; the mean is proved for the uniform law and, within 2^12 of 2^64, by counting generator states"
  },
  {
   "property": "C32",
   "status": "proved",
   "theorems": [
    "C32_split",
    "C32_mean_copies",
    "C32_expected_weight",
    "C32_copies_over_states"
   ],
   "note": "over the reals; factor below 2^64"
  },
  {
   "property": "C33",
   "status": "proved",
   "theorems": [
    "C33_over_population",
    "C33_low_weight",
    "C33_expected_weight",
    "C33_over_population_states",
    "C33_low_weight_states"
   ],
   "note": "over the reals"
  },
  {
   "property": "C34",
   "status": "proved",
   "theorems": [
    "C34_global",
    "C34_load_balanced"
   ],
   "note": "over the reals"
  },
  {
   "property": "C35",
   "status": "proved",
   "theorems": [
    "C35_source"
   ],
   "note": "over the reals; positive total source weight"
  },
  {
   "property": "C36",
   "status": "proved",
   "theorems": [
    "C36_flight",
    "C36_zero_draw",
    "C36_exponential",
    "C36_exponential_states",
    "C36_rounded",
    "C36_never_collides"
   ],
   "note": "distribution over the reals, where a zero draw is excluded by hypothesis and shown to come from one state only; infinite flights in the binary formats, for mean free paths of at least 2^-20 and census distances up to 2^70"
  },
  {
   "property": "C37",
   "status": "proved",
   "theorems": [
    "C37_speed",
    "C37_value"
   ],
   "note": "over the reals"
  },
  {
   "property": "C38",
   "status": "proved",
   "theorems": [
    "C38_material",
    "C38_no_region",
    "C38_file_order"
   ],
   "note": "over the reals; the first region of the list that contains the cell centre gives the material, and the list holds the geometry blocks of the file in reverse order of the file"
  },
  {
   "property": "C39",
   "status": "proved",
   "theorems": [
    "C39_validation",
    "C39_reports",
    "C39_start",
    "C39_lookups",
    "getParameters_named"
   ],
   "note": "for every number type and order of the hash maps; a cell outside every region is not covered by validation (see C38_no_region)"
  },
  {
   "property": "C40",
   "status": "proved",
   "theorems": [
    "C40_precedence"
   ],
   "note": "for every number type; the text readers are external parameters"
  },
  {
   "property": "C41",
   "status": "proved",
   "theorems": [
    "C41_blocks",
    "C41_simulation_block",
    "C41_order",
    "C41_order_violated",
    "C41_cut",
    "C41_file",
    "C41_errors"
   ],
   "note": "for every number type; the text readers are external parameters; key order matters only for the choice between an error and a panic, proved by a witness"
  },
  {
   "property": "C42",
   "status": "proved",
   "theorems": [
    "C42_policy",
    "C42_start",
    "C42_chunks_partition",
    "C42_automatic_chunks",
    "C42_explicit_chunks",
    "C42_no_zero_division",
    "C42_violated_thread_request_ignored"
   ],
   "note": "the requested number of threads is ignored unless threads are bound: proved as a violation"
  },
  {
   "property": "C43",
   "status": "proved",
   "theorems": [
    "C43_decomposition",
    "C43_bad_rank",
    "C43_slots"
   ],
   "note": ""
  },
  {
   "property": "C44",
   "status": "proved",
   "theorems": [
    "C44_nearest",
    "C44_any_query",
    "C44_no_center",
    "C44_tie_break_violated"
   ],
   "note": "Over the reals. The tie-break part of the statement is proved as a violation, with a concrete pair of centres."
  },
  {
   "property": "C45",
   "status": "proved",
   "theorems": [
    "C45_in_range",
    "C45_each_cycle",
    "C45_total"
   ],
   "note": "for every Flt T, schedule and number of cycles"
  },
  {
   "property": "C46",
   "status": "proved",
   "theorems": [
    "C46_sort_stable",
    "stable_sort_unique",
    "C46_sort_keeps_outcomes"
   ],
   "note": "for every Flt T; uniqueness of the stable sort makes the algorithm irrelevant"
  },
  {
   "property": "C47",
   "status": "proved",
   "theorems": [
    "C47_report",
    "C47_nested",
    "C47_calls",
    "C47_main",
    "C47_rows",
    "C47_no_overflow",
    "C47_last_sync_missing",
    "C47_no_cycle_violated",
    "C47_efficiency",
    "C47_merit",
    "C47_efficiency_rounded",
    "C47_merit_rounded",
    "C47_merit_violated"
   ],
   "note": "for every history of the clock and every number of cycles; a run without cycles violates the order, and the last cycle_sync is in no total: both are theorems; the ratings are over the reals and, up to rounding errors, in every arithmetic that follows IEEE 754; the figure of merit without a cycle is in every binary format"
  },
  {
   "property": "C48",
   "status": "proved",
   "theorems": [
    "C48_variance",
    "C48_covariance",
    "C48_correlation_range",
    "C48_correlation_cases",
    "C48_table",
    "C48_saved",
    "C48_tallies_read_back",
    "C48_timers_read_back",
    "C48_timers_any"
   ],
   "note": "statistics over the reals; layout for every number type, with the contract of number formatting and parsing as hypothesis"
  },
  {
   "property": "C49",
   "status": "proved",
   "theorems": [
    "C49_fluence_never_filled",
    "C49_violated_check_always_passes",
    "C49_check_meaning",
    "C49_accumulation"
   ],
   "note": "the desired property is violated: proved for every run; meaning of the check on a filled table proved over the reals"
  },
  {
   "property": "C50",
   "status": "proved",
   "theorems": [
    "C50_impossible",
    "C50_indices",
    "C50_sound_mesh",
    "C50_single_unit",
    "C50_any_arithmetic"
   ],
   "note": "RunFails lists every panic of a run under every schedule; impossible panics are excluded for every number type on a sound mesh, and the mesh of every single-unit run is sound over the reals; C50_any_arithmetic gives the same for every run that has started, in any arithmetic, when the drawn centre is in the grid"
  },
  {
   "property": "C51",
   "status": "proved",
   "theorems": [
    "C51_columns",
    "C51_same_cycles",
    "C51_cycles_violated"
   ],
   "note": "over the reals; with different numbers of cycles the printed change does not match the printed totals, proved by a witness"
  },
  {
   "property": "C52",
   "status": "proved",
   "theorems": [
    "C52_threads",
    "C52_threads_ok",
    "C52_tracking",
    "C52_speedup",
    "C52_ideal_speedup",
    "C52_speedup_violated"
   ],
   "note": "over the reals; the ideal speed-up of the plot agrees with the ideal times only when the study starts with one thread, both directions proved"
  },
  {
   "property": "C53",
   "status": "proved",
   "theorems": [
    "C53_materials",
    "C53_order",
    "C53_order_xs",
    "C53_fractions"
   ],
   "note": "materials and hash order for every number type; proportions over the reals"
  },
  {
   "property": "C54",
   "status": "proved",
   "theorems": [
    "C54_rows",
    "C54_transport",
    "C54_table",
    "C54_file",
    "C54_header",
    "C54_line",
    "C54_columns_violated",
    "C54_line_violated"
   ],
   "note": "over the reals; with several materials the last column of one and the first of the next are not separated in the file, proved"
  },
  {
   "property": "C55",
   "status": "proved",
   "theorems": [
    "C55_tracking",
    "C55_segment",
    "C55_run",
    "C55_spectrum",
    "C55_rounded"
   ],
   "note": "for every number type; C55_spectrum states the interval over the reals, C55_rounded with rounding, between the levels as the program computes them"
  },
  {
   "property": "C56",
   "status": "proved",
   "theorems": [
    "C56_events",
    "C56_age",
    "C56_survivors"
   ],
   "note": "events for every number type; times over the reals"
  },
  {
   "property": "C57",
   "status": "proved",
   "theorems": [
    "C57_tracking",
    "C57_processed"
   ],
   "note": "for every number type"
  },
  {
   "property": "C58",
   "status": "proved",
   "theorems": [
    "C58_tetrahedron",
    "C58_states",
    "C58_fold",
    "C58_volume"
   ],
   "note": "over the reals; the fold is given by its six inverse branches, affine of determinant one in absolute value"
  },
  {
   "property": "C59",
   "status": "proved",
   "theorems": [
    "C59_population",
    "C59_weights",
    "C59_expected",
    "C59_target",
    "C59_size"
   ],
   "note": "over the reals; split factor below 2^64 for the split; the target counts the requested sources, not the rounded ones"
  },
  {
   "property": "C60",
   "status": "proved",
   "theorems": [
    "C60_start",
    "C60_no_panic",
    "C60_progress",
    "C60_no_source_stops"
   ],
   "note": "over the reals, so without rounding, infinities and NaN; hypotheses on the parameters only, met by the built-in problem; outOfFuel stands for a run still going on"
  },
  {
   "property": "C61",
   "status": "proved",
   "theorems": [
    "C61_runs",
    "C61_results",
    "C61_no_lost_update",
    "C61_completes",
    "C61_exchange"
   ],
   "note": "for every Flt whose zero is not positive, given that the reference run succeeds; weaker memory than the code asks for"
  },
  {
   "property": "C62",
   "status": "proved",
   "theorems": [
    "C62_sourced",
    "C62_segment",
    "C62_event",
    "C62_history",
    "C62_run",
    "C62_edge_violated"
   ],
   "note": "over the reals, single unit; with the two exceptions of the statement; the edge case is shown to occur, it is not shown to be reached from a source"
  },
  {
   "property": "C63",
   "status": "proved",
   "theorems": [
    "C63_problem",
    "C63_covers"
   ],
   "note": "for every number type and all readers of numbers and YAML; the covering over the reals"
  },
  {
   "property": "C64",
   "status": "proved",
   "theorems": [
    "C64_started",
    "C64_refused",
    "C64_unknown_border",
    "C64_last_seed"
   ],
   "note": "for every number type; what the mesh and the nuclear data are is the subject of C16, C53, C54 and C63"
  },
  {
   "property": "C65",
   "status": "proved",
   "theorems": [
    "C65_ranges",
    "C65_above_violated"
   ],
   "note": "for every arithmetic that follows IEEE 754, under conditions on numbers that the program computes (FloatInput, FloatTables); without the condition on the source energies the claim is violated in f32, with a witness"
  },
  {
   "property": "C66",
   "status": "proved",
   "theorems": [
    "C66_start",
    "C66_no_panic",
    "C66_progress",
    "C66_range",
    "C66_input",
    "C66_builtin",
    "C66_no_source"
   ],
   "note": "for every arithmetic that follows IEEE 754, under conditions on numbers that the program computes (FloatMesh, FloatInput, FloatTables); C66_range derives the conditions on the tables from ranges of the input (FloatRange), where the f64 scaling of the cross-sections is modelled also for f32; C66_input asks for a brick that contains the whole problem in the place of conditions on the computed centres; C66_builtin checks all of them for the built-in problem in every binary format not smaller than f32"
  },
  {
   "property": "C67",
   "status": "proved",
   "theorems": [
    "C67_same_run",
    "C67_reproducible",
    "C67_file_order",
    "C67_started_tables"
   ],
   "note": "C67_reproducible asks that the reference run (each particle tracked on its own, without cache) finishes; C67_same_run does not. C67_started_tables discharges, for runs that start from parameters, the hypothesis StartTables of C09, C10, C11, C46 and C61"
  },
  {
   "property": "C68",
   "status": "proved",
   "theorems": [
    "C68_checks",
    "C68_crossings",
    "C68_events",
    "C68_ratios",
    "C68_ratios_violated",
    "C68_events_none"
   ],
   "note": "the meaning of the event and ratio checks is exact, over the reals; the zero divisors are treated in the binary formats, since division by zero is total over the reals; the fluence check is C49"
  },
  {
   "property": "C69",
   "status": "proved",
   "theorems": [
    "C69_written",
    "C69_tallies",
    "C69_tallies_no_cycle",
    "C69_read_back",
    "C69_spectrum",
    "C69_quotients",
    "C69_segments"
   ],
   "note": "numbers and text are related by a contract (formatting then parsing gives the number back); creating and writing a file is assumed to succeed; the quotients of C69_quotients are over the reals, and with rounding they are bounded under C47"
  },
  {
   "property": "C70",
   "status": "proved",
   "theorems": [
    "C70_source",
    "C70_scatter",
    "C70_fission"
   ],
   "note": "exact real arithmetic, with uniform and independent numbers in place of those of the generator; each quantity is a fixed function of numbers of the generator named by their rank"
  },
  {
   "property": "C71",
   "status": "proved",
   "theorems": [
    "C71_integers",
    "C71_notations",
    "C71_round_trip",
    "C71_run"
   ],
   "note": "for every number type; YAML and the notation of floats are external, related to a writer by a contract (ReadBack) that a concrete reader and writer are shown to meet"
  },
  {
   "property": "C72",
   "status": "proved",
   "theorems": [
    "C72_target",
    "C72_spread",
    "C72_stops"
   ],
   "note": "the description of the machine is external and arbitrary; the processing units are asked to be distinct"
  },
  {
   "property": "C73",
   "status": "proved",
   "theorems": [
    "C73_once",
    "C73_zero",
    "C73_counters",
    "C73_tracking"
   ],
   "note": "rayon's splitting of chunks and its reduction are modelled from its documentation and source; its decisions are arbitrary"
  },
  {
   "property": "C74",
   "status": "proved",
   "theorems": [
    "C74_optical_depth",
    "C74_collision",
    "C74_any_depth",
    "C74_law",
    "C74_states",
    "C74_travels",
    "C74_track_length",
    "C74_valid"
   ],
   "note": "real arithmetic; distances beyond 10^76 cm are not distinguished by the program; a draw of 0 is an infinite flight in the program; the cross-sections must be positive, which valid inputs with matter ensure"
  },
  {
   "property": "C75",
   "status": "proved",
   "theorems": [
    "C75_sum",
    "C75_ratio",
    "C75_orders",
    "C75_finite",
    "C75_linear",
    "C75_entries",
    "C75_report",
    "C75_schedules",
    "C75_lost",
    "C75_order_matters_violated"
   ],
   "note": "the contributions themselves are those of the reference without threads, computed with the same rounding (C09); the bound is on the additions"
  },
  {
   "property": "C76",
   "status": "proved",
   "theorems": [
    "C76_largest",
    "C76_particle",
    "C76_generations",
    "C76_run"
   ],
   "note": "over the reals, where the logarithm of a draw equal to 0 is 0; the exceptional cases are stated as hypotheses on the states of the run (`Ordinary`), and a run of the built-in problem that meets them is in Props/EndingCase.lean"
  },
  {
   "property": "C77",
   "status": "proved",
   "theorems": [
    "C77_units",
    "C77_once",
    "C77_two_units",
    "C77_crossing",
    "C77_violated_coverage"
   ],
   "note": "the program stops with `todo!()` when several units are asked for (C42), so this is about the construction of the mesh as a library; `C77_violated_coverage` shows that with three units a cell can belong to none, see finding 34 of DESIGN.md"
  },
  {
   "property": "C78",
   "status": "proved",
   "theorems": [
    "C78_reciprocal",
    "C78_formats",
    "C78_segment",
    "C78_survivors",
    "C78_particles",
    "C78_weights",
    "C78_all_weights",
    "C78_contributions",
    "C78_flux",
    "C78_reported_flux",
    "C78_builtin"
   ],
   "note": "`small_run_rounded` shows a run with a tracked particle that meets the hypotheses of the weight and contribution theorems, in exact arithmetic, which follows the same rules; the built-in problem meets those on the input and the tables in `f32` and `f64`"
  },
  {
   "property": "C79",
   "status": "proved",
   "theorems": [
    "C79_same_results",
    "C79_all_finish",
    "C79_same_flux",
    "C79_exact",
    "C79_rounded",
    "C79_rounded_flux",
    "C79_reproducible"
   ],
   "note": "the loops of the model have a bound (fuel); the executions compared may have different bounds. `small_run` gives a finished execution on four threads in which a particle is tracked"
  },
  {
   "property": "C80",
   "status": "proved",
   "theorems": [
    "C80_located",
    "C80_center_located",
    "C80_root",
    "C80_cell_numbers",
    "C80_sourced_distinct"
   ],
   "note": "`RootInGrid` (the drawn centre of the unit is in the grid) follows from the three drawn states of the generator by `C80_root`; it fails when a draw rounds to one. The built-in problem meets the hypotheses in f32 and f64"
  },
  {
   "property": "C81",
   "status": "proved",
   "theorems": [
    "C81_flight",
    "C81_survivors",
    "C81_weights",
    "C81_collision",
    "C81_source",
    "C81_target",
    "C81_size"
   ],
   "note": "over the reals. `ValidInput` is the domain of C60. The positive weights need a positive low-weight cut-off and materials with isotopes and reactions; the collisions need materials with a positive total cross-section and three reactions, and a draw below one"
  },
  {
   "property": "C82",
   "status": "proved",
   "theorems": [
    "C82_collision",
    "C82_mean",
    "C82_growth",
    "C82_run"
   ],
   "note": "over the reals; a mean yield from 0 up to below 4, which a valid input guarantees, and a first draw below one (for a draw of one see C28). The mean is over two independent uniform draws in [0,1], the draws of the generator being those of C01 to C04"
  },
  {
   "property": "C83",
   "status": "proved",
   "theorems": [
    "C83_rescue",
    "C83_home",
    "C83_worn",
    "C83_misplaced"
   ],
   "note": "over the reals. C83_misplaced states what the code does, not what it should do: the move is kept although the facet is crossed (finding 28); its hypotheses are met in the built-in problem (`worn_happens` and the example that follows)"
  },
  {
   "property": "C84",
   "status": "proved",
   "theorems": [
    "C84_seed",
    "C84_seed_exact",
    "C84_seed_valid"
   ],
   "note": "C84_seed is for every arithmetic, with the sum of what the cells emit assumed equal in both runs; C84_seed_exact discharges this where additions can be exchanged; C84_seed_valid, over the reals, adds that the other seed starts and that the reported fluxes are the same. So a user cannot get another sample of the simulation by changing the seed (finding 35)"
  },
  {
   "property": "C85",
   "status": "proved",
   "theorems": [
    "C85_history",
    "C85_flux",
    "C85_report",
    "C85_distance"
   ],
   "note": "Over the reals. C85_history: one history; C85_flux: the report of a cycle, for any problem with sound tables; C85_report: the same for finished runs on valid inputs, where the weights are shown to be positive; C85_distance: any number of cycles, with the two exceptions of C62."
  },
  {
   "property": "C86",
   "status": "proved",
   "theorems": [
    "C86_start",
    "C86_passage",
    "C86_fails",
    "C86_exact",
    "C86_rounded"
   ],
   "note": "C86_start, C86_passage and C86_fails hold for every number type; C86_exact is over the reals for valid inputs, C86_rounded for IEEE arithmetic."
  },
  {
   "property": "C87",
   "status": "proved",
   "theorems": [
    "C87_reflect",
    "C87_leaves",
    "C87_turns",
    "C87_crossing"
   ],
   "note": "C87_reflect, C87_leaves and C87_turns hold for every number type and need no assumption on the input but that the program starts; C87_crossing is over the reals."
  },
  {
   "property": "C88",
   "status": "proved",
   "theorems": [
    "C88_study",
    "C88_plots",
    "C88_single_run_violated",
    "C88_no_run",
    "C88_missing",
    "C88_studies",
    "C88_tables",
    "C88_accepted"
   ],
   "note": "for every number type; the plots of a single run are shown to panic, which is finding 36"
  },
  {
   "property": "C89",
   "status": "proved",
   "theorems": [
    "C89_volume",
    "C89_material"
   ],
   "note": "for every arithmetic that follows IEEE 754; one unit; regions that are spheres are not covered by C89_material"
  },
  {
   "property": "C90",
   "status": "proved",
   "theorems": [
    "C90_operations",
    "C90_cross",
    "C90_division",
    "C90_square_rounded"
   ],
   "note": "over the reals, and the square of a length with rounding (the square root itself has no error bound in the model); the scalar product, norm and distance are Mathlib's on EuclideanSpace, the vector product Mathlib's crossProduct"
  }
 ]
}