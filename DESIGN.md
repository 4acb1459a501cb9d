# Formal model of fastiron: design

This document says what of `/repo` (cea-hpc/fastiron) is modelled in Lean 4, how each
property of `properties.jsonl` is stated and proved, and what has to be trusted.

## 1. Architecture of the model

### Numbers
The Rust code is generic over a float type `T: CustomFloat`.  The model is too: every function is
written once over a class `Flt T` (`Verif/Model/Flt.lean`) that has *operations only and no laws*
(`+ - * / neg`, Boolean comparisons, `sqrt`, `ln`, `to_usize`, ...).

* **Control-flow theorems** (particle balance, counters, schedules, cache, identifiers) are proved
  for **every** instance of `Flt`.  They hold for IEEE floats with rounding, infinities and NaN, for
  any implementation of the arithmetic.
* **Geometric, physical and statistical theorems** are proved for the instance `Flt ℝ`
  (`Verif/Model/Real.lean`): exact real arithmetic.  These theorems do not cover rounding errors.
* **Theorems with rounding** (C65, C66, C75, C78, C80, C89, and the theorems of other properties that are named `_rounded` or range over `Ieee T` or the binary formats) are proved for every arithmetic that follows the rules of IEEE 754:
  `class Ieee T` (`Verif/Spec/Ieee.lean`) lists the laws that are used, the main one being that the rounding
  is monotone and leaves the numbers of the format unchanged.  `Verif/Model/Binary.lean` defines the binary
  formats with rounding to nearest even, subnormal numbers, infinities, not-a-number and signed zeros, and
  `Verif/Lemmas/Binary.lean` proves the laws for all of them, so for `f32` and `f64`.
  `Verif/Lemmas/IeeeReal.lean` proves them for exact arithmetic too: the laws ask for no rounding.
  The scaling of the cross-sections is computed in `f64` whatever the format (`nuclear_data.rs` 68-105); the class `Flt`
  has a second type `Wide` for these numbers, which is `f64` in the instances of the binary formats.
* The instance `Flt Float` (`Verif/Model/FloatInst.lean`) makes the model executable.
  `Verif/Sanity.lean` runs it on the values of the repository's own unit tests.  These runs are
  conformance checks of the model, not proofs.

### Integers
Generator states are `BitVec 64` with wrapping arithmetic, as in Rust.  `usize`/`u64` counters,
indices and `Duration` nanoseconds are `Nat`; overflow of a 64-bit counter is excluded by assumption.

### Resources
Memory is unbounded in the model: allocations succeed and the capacities reserved for vectors are not
modelled.  The real program stops when a reserved capacity exceeds what a vector can hold or what the
machine has: `init_particle_containers` reserves room for the requested number of particles, and
`process_particles` reserves five times the chunk size for each chunk, whatever the number of particles
in it.  The theorems that a run does not panic (C60, C66) are to be read for inputs whose vectors fit.

### Panics, loops, mutation
`panic!`, `assert!`, `unwrap`, `unreachable!`, out-of-bounds indexing are values of an inductive
type `Panic`; functions return `Except Panic _`.  `&mut` arguments become returned values.
Loops without a syntactic bound take a `fuel` argument and return `Panic.outOfFuel` when it runs
out; theorems are about runs that finish (partial correctness), and separate theorems prove
termination where the code does terminate.

### Shared memory
The tracking code of one particle is a program tree `Prog` (resumption monad) whose nodes are the
accesses to shared memory: atomic load and store of a cross-section cache entry, atomic add on a
flux entry, append of a batch to the shared list of new particles.  The sequential semantics runs
the tree; the concurrent semantics is a step relation over a pool of trees in which any worker may
make the next access.  In that semantics the compare-and-swap loop of the flux tally is one atomic add
and a load of the cache returns the latest value.  `Verif/Model/Relaxed.lean` gives the semantics of
the single instructions: arbitrary relaxed loads, weak exchanges that may fail, loads of the cache that
may return any former value.  C61 proves that both have the same runs.  What is assumed of the hardware
is that an exchange is atomic and that the start and the end of a parallel section synchronise.

### Hash maps
A `HashMap` is an association list (`HMap`, `Verif/Model/HMap.lean`).  Where the code iterates over a
map, the model takes the order as a parameter (`IterOrder`, `StrOrder`) and the theorems hold for every
function that permutes its argument.

### Sorting
`slice::sort_by` is modelled by an insertion sort.  `stable_sort_unique` proves that every stable sort by
a total preorder gives the same list, so the algorithm does not matter.

### Text
The readers of numbers and of YAML are parameters (`TextReaders`), and so are the writers
(`TextFormat`).  Theorems about files written and read back assume the contract `TextFormat.Sound`: a
written number is read back as the same number and holds no separator.

### Examples that the kernel can evaluate
`Toy` (`Verif/Model/ToyInst.lean`) is a fixed-point instance of `Flt` on integers.  With it the kernel
evaluates whole runs of the model (`Verif/Model/ToyProblem.lean`); they serve only as non-vacuity examples
beside theorems that hold for every `Flt`.

## 2. Layout

| directory | content |
|---|---|
| `Verif/Model/*` | definitions only, each citing file and lines in `/repo` |
| `Verif/Spec/*` | small specifications used by several properties |
| `Verif/Lemmas/*` | helper lemmas |
| `Verif/Props/*` | property theorems, with their specification and non-vacuity examples |
| `Verif/Sanity.lean` | executable conformance checks |

Specifications shared by several property files:

| file | content |
|---|---|
| `Spec/Direct` | the reference computation: particles tracked one by one, without cache, threads or shared memory |
| `Spec/Countable` | numbers of particles that 64 bits can count |
| `Spec/Together` | energy groups within the tables for every particle that a run meets |
| `Spec/Vectors` | the vector of the Euclidean space with the coordinates of a vector of the program |
| `Spec/Ieee`, `Spec/FloatProblem`, `Spec/FloatMesh`, `Spec/FloatRange` | the rules of rounded arithmetic, and what the theorems with rounding ask of an input and of its tables |
| `Spec/Reach` | `Reachable`: particles that a run can hold; `Visited`, `Processed`: states and results of the tracking of one particle |
| `Spec/Fails` | `RunFails`: every way a run can stop with a panic, under every schedule |
| `Spec/Reactions` | weights of the reactions of a material, prefix sums |
| `Spec/Multiplicity` | neutrons out of a reaction, of a collision for two draws, and fission yield of a material |
| `Spec/GridSpec`, `Spec/Box`, `Spec/Triangle`, `Spec/MeshSpec` | the grid as a set of boxes, exit point of a ray, triangles, sound meshes |
| `Spec/Seeds` | problems that differ only in the seed, and states that differ only in the numbers of the cells |
| `Spec/Steps` | the same problem with another number of cycles |
| `Spec/Nearest` | minimal distance |
| `Spec/Startup`, `Spec/Init`, `Spec/Config` | single-unit problems, consistent parameters, meaning of an input file |
| `Spec/Timing`, `Spec/Stats`, `Spec/StatsMain` | clock histories, statistics, tables, scaling studies |

## 3. Properties: what is modelled and how it is proved

Unless a hypothesis is named, the theorems hold for all inputs.  "generic" means for every `Flt T`; "real"
means exact real arithmetic.

| id | model | arithmetic | proof, hypotheses, exceptions |
|---|---|---|---|
| C01 | generator state to number, conversion u64→f64 as round-to-nearest-even to 53 bits | bit-level | arithmetic bound; `C01_conversion_is_nearest` shows the conversion is nearest-even; exact set of states giving 1; the documented interval is proved false |
| C02 | LCG step | bit-level | iteration in `ZMod (2^64)`, 2-adic lifting |
| C03 | `breakup`, `pseudoDes`, `rebuild` | bit-level | Feistel network, explicit inverse of each round |
| C04 | split and fission loops | generic | C02 and C03: distinct states in the orbit |
| C05 | identifiers given by `source_now` over a history of cycles | generic | seeds differ, C03, injectivity of the LCG step; any schedule |
| C06, C07, C08 | whole cycles and runs | generic | counting invariant by induction over tracking, generations, cycles; balances are naturals, and `C08_no_underflow` shows that the differences of the code do not underflow |
| C09 | `Prog` pools | generic | a simulation between any interleaving and the reference of `Spec/Direct`. Hypotheses: the reference succeeds, tables have one value per group, zero is not positive |
| C10 | cache loads and stores | generic | invariant: each entry is zero or the direct value. Fails above the last energy level: `C10_violated_above_last_level` |
| C11 | flux additions, reset between cycles | generic / real | the contributions of a phase are a permutation of those of the reference; sums in ℝ. `C11_cycle_report`: the number reported for a cycle is the sum of the contributions of that cycle alone |
| C12, C14, C43 | index arithmetic, neighbours, decomposition | integers | division and remainder. The code mixes `i32` and `usize`; the model uses `Nat` and `Int` without wrapping |
| C13 | `which_cell` | real | floor lemmas; the upper faces are treated separately (`C13_upper_x`, `C13_upper_y`, `C13_upper_z`) |
| C15 | facet tables, `make_facet` | real | finite tables by `decide`, lifted to all grids by node formulas; `C15_z_violated` for z faces |
| C16 | flood fill, cell construction, facet adjacency | real | the flood reaches everything because the grid is connected. Hypothesis: the random centre is inside the grid; `C16_draw_one_violated` otherwise |
| C17, C18, C19 | planes, volumes, sourced positions | real | vector algebra on the 24 tetrahedra of a box. Hypothesis: a single-unit mesh as built by the program |
| C20, C21 | directions, reflection | real | trigonometric identities, invariant over reachable particles |
| C22 | segment outcome | real | case analysis of the three distances, for every answer of the cache |
| C23, C24 | time bookkeeping | real | invariant of the tracking loop. Hypotheses `TimeHyps`: positive energies, masses above one, non-negative tables. Offspring born at census violate C24 (`C24_violated_at_census`) |
| C25 | nearest facet | real | geometry of a box and its facets, single-unit mesh; the facet contains the exit point up to the tolerance 1e-9 of the code |
| C26, C27 | energy groups and energies | real | bisection invariant; invariant over reachable particles, `C27_violated_below_20` |
| C28, C29, C30 | reaction search, cross-sections, tables | real | prefix sums, measures of the intervals, counting of generator states; zero density and too few reactions are separate theorems |
| C31–C34, C36, C37 | yields, split, roulette, factor, flight length, speed | real | functions of the draw; means as integrals over [0,1] and by counting the 2^64 generator states |
| C35 | sourcing | real | floors of cell weights |
| C38, C39, C40, C41 | geometry order, validation, precedence, block reading | generic | list lemmas over every hash order; `C38_no_region` and `C41_order_violated` are the exceptions |
| C42 | policy and chunks | integers | case analysis; `C42_violated_thread_request_ignored` |
| C44 | `nearest_center` | real | branch-and-bound invariant; the tie-break is violated (`C44_tie_break_violated`) |
| C45, C49 | spectrum, fluence | generic / real | counting; the fluence table stays empty (`C49_violated_check_always_passes`) |
| C46 | sort of the particles | generic | permutation, stability, uniqueness, C09 |
| C47 | timers | naturals; ratings real and IEEE | induction over the clock history; relative errors of the ratings; no-cycle and last-synchronisation findings |
| C48, C51, C52 | `fastiron-stats` | real / generic | Cauchy–Schwarz, table layout, read-back under the text contract |
| C50 | panics | generic / real | `RunFails` enumerates the panics of a run; those named impossible are excluded on a sound mesh, and every single-unit mesh is sound |
| C53, C54 | nuclear data from the input, exported table | generic / real | folds over hash orders; the exported file line by line; the columns of successive materials are not separated (`C54_columns_violated`) |
| C55, C56, C57 | survivors: group, census, weight | generic / real | invariant over the states of the tracking of one particle, lifted to runs by `cycles_tracked` |
| C58 | spread of sourced positions | real | equal tetrahedra, six volume-preserving branches of the fold, counting of generator states |
| C59 | population control | real | `filterMap` of the games, families of a split, iterated integrals |
| C60 | whole run and start-up | real | each step total on sound states; soundness built from the parameters; invariants over the cycles |
| C61 | workers at the level of atomic instructions, whole runs | any | simulation: a worker is equal to the program it follows or has one redundant store left; converse step by step |
| C62 | whole histories of particles, geometry | real | nearest exit of the box; facet crossing keeps the point on the common face; induction over the history |
| C63 | reading of the parameters, defaults | any, real | case analysis on the regions of the file; specification of the built-in problem in `Spec/Problem.lean` |
| C64 | start-up | any | inversion of the start-up; the state and the settings are compared with `Spec/Started.lean` |
| C65 | whole runs with rounding | IEEE 754 | invariant over reachable particles; ranges of rounded results from monotone rounding; exception when the last digit of the upper energy is odd |
| C66 | start-up and whole runs with rounding | IEEE 754 | every float-to-integer conversion is in range; bounds on the mesh, volumes, cross-sections and weights; the built-in problem is worked out in every format |
| C67 | start-up and whole runs for two inputs | any | simulation relation between runs whose materials are numbered differently, from the lookups up to the whole run; then C09 |
| C68 | benchmark checks | any / real / binary formats | the counters are those of C07 and C08; field arithmetic; not-a-number when no reaction has happened (`C68_ratios_violated`) |
| C69 | files of a run | any / real | induction over the calls of the timers and over the lines; C06-C08, C45, C47, C48 |
| C70 | distributions of directions, energies and times | real | change of variables on the unit ball (cylindrical, then spherical); volume kept by rotations; area of sets of draws |
| C71 | writing and reading input files | generic | the file that describes given parameters is cut, read and folded back to them; decimal notations by induction on digits |
| C72 | binding of threads | lists | the cyclic choice is a residue; counting of residues |
| C90 | vectors | real | coordinates; comparison with Mathlib's Euclidean space |
| C89 | volumes, centres and materials of the cells with rounding | IEEE 754 | every operation adds at most one unit of the last place of its largest operand, measured in sizes of the cell; 14 points, 24 tetrahedra |
| C88 | `fastiron-stats` from the command line to the saved tables | any | effects are lists that a panic cuts; reading of the reports by C48, threads by C52 |
| C87 | borders of the mesh, facet crossing, tracking, all schedules, reports | any / reals | the event of every facet that `build_cells` makes is the one of the border for its face or a passage; the escape counter is followed through tracking, workers, cycles and reports; C16 for the position of the faces |
| C86 | the core loop, `cycle_sync` with its early return, start-up, all schedules, panics | any / reals / IEEE | every function reads the data but for the number of cycles, by induction on the recursive ones; `cycle_sync` differs only at a step that no run reaches; then C79 for the shorter run |
| C85 | the segments of a flight, the tally of the flux, the counters of a cycle, start-up | reals | the length of a segment is speed times the growth of the age; sum over the segments, then over the generations, whose size the counter of produced particles bounds; triangle inequality along the relation `Descends` |
| C84 | `initMesh`, `startRun`, `RunCore` and all they call | any `Flt`; reals | every function of the tracking, of the population control and of the synchronisation is shown to commute with a change of the numbers of the cells; two meshes built from the same grid differ by such a change; with C09 for the schedules |
| C83 | `nearestFacet`, `mctNf3dg`, `nfLoop` | reals | induction over the thousand moves gives the part of the way that is left as a product, bounded by arithmetic; the box of a cell is convex; the result of the search does not depend on the moves because it uses the copied position |
| C82 | `collisionEvent`, `Particle.sampleCollision` | reals | C28_event gives the selected reaction and C31_yield the number; the integral over the first draw splits at the cumulated weights, that over the second is C31_mean; C81_collision carries it to runs |
| C81 | whole runs: `startRun`, `Cycles`, `cycleSync`, `sourceNow`, `outcome`, `collisionEvent` | reals | `ValidInput.start` gives the hypotheses of C20, C23, C27, C28, C29, C35, C55, C56 and C59 for the started state; the invariants carry them along every execution; weights through the one-by-one reference (`cycles_direct`) |
| C80 | `meanPoint` and `whichCell` of the model of the grid, `cellStateOf`, `startRun`; `Spec/FloatMesh.lean` | IEEE 754 | each rounding multiplies by a factor between 1/ρ and ρ with ρ = 1 + 2^-22, and all the terms are positive; eighteen roundings do not move (i + 1/2) out of [i, i + 1) for i ≤ 1024 |
| C79 | `RunCore` (all interleavings) and the one-by-one reference `DirectRun`; `Spec/Together.lean`, `Spec/Direct.lean` | any, exact, IEEE 754 | a finished execution yields a finished reference: each tracked particle's history is rebuilt from its chunk, the cache answering what a direct computation answers; the reference has one result whatever its bound; C09 carries it to the other executions |
| C78 | the segment, the population control and the flux tally; `Spec/Ieee.lean`, `Spec/FloatProblem.lean`, `Spec/Countable.lean` | IEEE 754 | each operation of the segment keeps the signs because rounding is monotone and keeps zero; induction over the ways in which a run makes particles; the error of C75 for contributions that are not negative |
| C77 | the flood, the numbering and the exchange between partitions; `Spec/Units.lean` | exact reals | invariant of the flood (wet cells are the met ones); invariant of the loop over the units (what the built ones know of each other); for two units, a step towards the root keeps a cell on its side of the plane between the roots |
| C76 | the loop over the segments, the loop over the generations, the core loop; `Spec/Ending.lean` | exact reals | the potential (segments left) = collisions left, bounded by the optical path, and facets left between two collisions, bounded by the length that can still be travelled; a reflection changes a direction at most once without travel |
| C75 | the flux tally and the reported total, with the rounding of `Model/Binary.lean`; `Spec/Rounding.lean` | binary formats | sums of two numbers of a format never underflow, so each addition has a relative error of half a unit of the last digit; induction over the list; then C09 and C11 give the list up to order |
| C74 | flights from collision to collision (`directOutcome`, `facetBranch`, `gutsPrepare`), `Spec/Flight.lean` | real numbers | induction over the legs: the depth enters a segment only by the distance to collision; then the inverse of the exponential law, counting of draws and two integrals |
| C73 | parallel iteration | lists | induction over the tree of splits; a list cut after whole chunks has the same chunks; addition of balances is associative |

No property of `properties.jsonl` is left without a theorem.  Where the code does not do what its
documentation or its names promise, the statement in `properties.jsonl` says so and the exception is a
theorem with a concrete witness.

## 4. Findings

Each one that is inside the model has a theorem.

1. `rng_sample` may return exactly 1.0 (1024 states), the documentation says [0;1[. (`C01_documented_range_violated`)
2. `OPPOSING_FACET` pairs the wrong triangles on z faces; the table is an involution, so the start-up check
   passes. (`C15_z_violated`)
3. Energies above `eMax` (fission gives up to 20) index group `num_groups`, one past the tables; the shared
   cache then answers with the value of the next cell, or the program panics, depending on the schedule.
   (`C27_violated_below_20`, `C10_violated_above_last_level`)
4. `mct_nf_3dg` copies the coordinates before its retry loop: retries compute the same thing again. (`C83_worn`)
5. `nearest_center` computes a tie-break and discards it. (`C44_tie_break_violated`)
6. `which_cell` does not clamp: points on the upper border are located outside of the grid. (`C13_upper_x`, `C13_upper_y`, `C13_upper_z`)
7. `FluenceDomain` is never sized; the fluence check always passes. (`C49_violated_check_always_passes`)
8. `collision_event` loops forever when all cross-sections are zero. (`C28_no_end_without_weight`)
9. `nu_bar > 4` can trip `assert!(num_particle_out < 5)`, `nu_bar <= -1` makes an `unwrap` fail. (`C31_five_or_more_stops`, `C31_invalid_stops`)
10. `boundary_condition` is not validated: a wrong name reaches `unreachable!`. (`C64_unknown_border`)
11. If `eMax < 1` the cross-section normalisation divides by zero; with one or two reactions the total is not
    the requested one. (`C30_zero_divisor`, `C30_few_reactions`)
12. `regulate_population` counts low-weight kills as `OverRr`. (`C59_population`)
13. A fission child born exactly at census gets another `dt` in the same cycle. (`C24_violated_at_census`)
14. The input file overrides the command line except for two output names; blocks of a file are processed in
    reverse order. (`C40_precedence`, `C38_file_order`)
15. A draw of exactly 1 puts the random centre of the mesh outside the grid, and the mesh gets a cell too many. (`C16_draw_one_violated`)
16. `-r N` without `--bind-threads` never builds a pool. (`C42_violated_thread_request_ignored`)
17. Zero density gives 1e-20 per isotope as total while the reaction search finds no weight. (`C29_zero_density`)
18. With several faulty values the hash order decides between an error and a panic. (`C41_order_violated`)
19. A cell outside every geometry passes validation and stops the start-up. (`C38_no_region`)
20. The last `cycle_sync` is counted but its time is in no total; a run without cycles reports
    `Duration::MAX` as shortest time, and not-a-number as figure of merit. (`C47_last_sync_missing`,
    `C47_no_cycle_violated`, `C47_merit_violated`)
21. `comparison.csv` prints totals but computes the change from averages. (`C51_cycles_violated`)
22. The ideal speed-up of the strong scaling plot is inconsistent unless the study starts with one thread. (`C52_speedup_violated`)
23. The exported cross-section file does not separate the columns of successive materials. (`C54_columns_violated`, `C54_line_violated`)
24. The split factor counts the requested sources, not the rounded ones, so the population settles below the target. (`C59_target`)
25. Without any source the weight of a sourced particle is zero, its share `0 / 0` is NaN and the `unwrap` of
    `source_now` panics. (`C60_no_source_stops`, `C66_no_source`)
26. `params.seed + 1` overflows for the seed `u64::MAX` (`C64_last_seed`); a scatter with a mass below one can give a
    negative energy (`C27_violated_light`).
27. A particle on a face and leaving by it, whose ray meets the plane of another face within 1e-9 beyond the first,
    is sent to the second one: it ends outside of its cell and of the neighbour it is given. (`C62_edge_violated`)
28. After ten million segments a particle on a face is moved a thousand times towards the centre of its cell and
    then crosses the facet anyway. (exception `WornOut` of C62, `C83_misplaced`)
29. With rounding, the source can give an energy above its upper bound: `u * (max - min) + min` with `u = 1` (which
    `f32` gives once in about 2^25 draws) is rounded twice, and exceeds `max` for bounds such as 20.000002 and
    2.861023e-6.  The group of such a particle is one past the last one and its look-up panics.  This cannot
    happen when the last binary digit of the upper bound is even, as it is for the default value 20.
    (`C65_above_violated`, `sourced_even`)
30. The ratio check of the benchmarks passes when no reaction has happened: every ratio is NaN, and the test is that
    none is above the tolerance. (`C68_ratios_violated`)
31. The report of the tallies is made anew when the first cycle is reported, so a run of no cycle leaves the report of
    an earlier run in place. (`C69_tallies_no_cycle`)
32. Threads are bound to the units of the first NUMA node only, so the other nodes of the machine are left idle; and
    the program stops if the library does not place the units below that node. (`C72_spread`, `C72_stops`)
33. The flux tally adds every segment to one number of the precision of the run. In single precision an entry that
    received 2^24 equal contributions stops growing, and the same contributions added in another order give another
    flux. (`C75_lost`, `C75_order_matters_violated`)
34. With three units or more a cell can belong to no unit: a unit grows only through its own cells, and the cells
    nearest to a root need not be connected when the cells of the grid are not cubes. (`C77_violated_coverage`: two
    cells out of 33.)  With two units this cannot happen. (`C77_two_units`)
35. The seed of the input does not change the simulation on one unit: it only decides the numbers of the cells. The
    random numbers of the particles come from the identifiers of the cells and from counters that start at zero. So
    runs with other seeds are not other samples of the simulation. (`C84_seed`, `C84_seed_valid`)
36. A scaling study of a single run cannot be plotted: the scale of the axis is taken from the first two runs, so the
    program panics after it has saved the tables, and a strong study asked for on the same command line is lost.
    (`C88_single_run_violated`)
37. The field of a particle documented as the "normal dot product value kept when crossing a facet" is zero after every
    segment: the search for the nearest facet never computes the product it is copied from.  (`C25_normal_zero`,
    `C25_normal_violated`)

## 5. Trusted base

* Lean 4.33.0's kernel, and the axioms `propext`, `Classical.choice`, `Quot.sound` (no others).
* The correspondence between the model and the Rust text: every definition cites its source lines and says
  where it simplifies.
* For theorems with rounding: the laws of `Verif/Spec/Ieee.lean`.  They are proved for the formats of
  `Verif/Model/Binary.lean`, where the logarithms and exponentials are taken as correctly rounded; the laws only ask
  that these functions are right up to a factor of two or to the next integers, in a middle range.
* Assumptions: no overflow of 64-bit counters; exact real arithmetic for theorems over ℝ (division by zero,
  logarithm of zero and square roots of negative numbers are totalised by Mathlib, so the theorems carry guards
  where they matter); atomic per-location accesses; the standard library and the crates `num`, `rayon`, `csv`,
  `clap`, `atomic`, `serde_yaml` behave as documented.

Modelled: generator, vectors, planes and facets, grid, mesh partition and construction, nuclear data, materials,
particles, tracking, events, tallies, containers, population control, cycles and run, execution policy, command
line and input file, initialisation, timers, reports, `fastiron-stats`, benchmark checks.

Not modelled: messages on the console, wall-clock time sources, the system calls that bind threads, the conversion between numbers and
text, drawing of plots by gnuplot, distributed modes (unimplemented in the code too).

## 6. Tests of the theorems

`seeded/LOG.jsonl` records edits of the model that mimic realistic bugs, the theorems that fail under each, and
those that were added or tightened because an edit survived.
