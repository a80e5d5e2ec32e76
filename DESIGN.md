# DESIGN — a Lean 4 model of CDT-plusplus

The model is a set of total Lean functions that follow the C++ text in `/repo` (read as text;
nothing was compiled or run).  Every definition cites the file and lines it models and says where it
simplifies.  `lean/Verif/Model` is the model, `lean/Verif/Spec` the small independent
specification, `lean/Verif/Lemmas` helper lemmas, `lean/Verif/Props` the property theorems
(`theorem Cnn_*`), `lean/Verif/Fixture` concrete objects used only to show that hypotheses are met.

## Trusted base

* Lean 4.33.0's kernel and the statements in `Spec`, `Model` and `Props` (the proofs are checked).
* Axioms: every property theorem depends on at most `propext`, `Classical.choice`, `Quot.sound`.
  No axiom is added; there is no compiled-code evaluation (`decide +kernel` is evaluated by the
  kernel itself and is used for concrete witnesses and finite enumerations only).
* The reading of the C++ text: that the model definitions say what the cited lines do.
* The assumptions about code outside the repository listed below.

## Layers

| Model | Code modelled |
| --- | --- |
| `Tracker` | Move_tracker.hpp, Move_outcome.hpp (counters, codes, outcomes, failure classes) |
| `Command` | Move_command.hpp, accumulate/consume in Move_run.hpp |
| `Run` | Move_run.hpp (`execute_move_run`, cadence), Move_always.hpp |
| `Metropolis` | Metropolis.hpp transition system, run and call API |
| `CheckMove` | `check_move` in Ergodic_moves_3.hpp |
| `Tds`, `Foliation` | the part of CGAL's triangulation data structure that is called; classification in Foliated_triangulation.hpp |
| `Moves` | Ergodic_moves_3.hpp: site filters, `prepare_*`, `execute_*`, `do_*`, `propose_*`, `make_manifold` |
| `Manifold` | caches, counts, structural check, Geometry.hpp, observers of Manifold.hpp |
| `Simulation` | the pieces above put together as the engines the strategies use |
| `Program` | the two `main` functions on a parsed command line, the `Metropolis_3` constructor and provenance code, `write_file(universe, metadata)`. Arbitrary (`Host`, `Outside`): the engine, CGAL's streams, manifold queries, entropy, clock, and how the initial universe comes out of the seed (with several threads CGAL need not be deterministic). Not modelled: Boost's parsing of argument strings; the output is in `Transcript` |
| `SamplerProgram` | the constructors of `Metropolis_3` and every call of its interface with real files (Metropolis.hpp 121-217, 265-273, 642-714). Arbitrary: as for `Program` |
| `Console` | what `execute_move_run`, `Metropolis_3::print_results` and `MoveAlways_3::print_results` write with `fmt::print`, each call able to fail after any number of bytes. Not modelled: log records (spdlog). Simplified: format strings have only `{}` fields, which is so in the code modelled |
| `Portrait` | `print`, `print_details`, `print_volume_per_timeslice`, `print_edges`, `print_delaunay`, and `MoveCommand`'s reports. Simplified: the slice loop counter does not overflow at `INT_MAX` (`Listing` has the overflow) |
| `Listing` | `print_vertices`, `print_cell`, `print_cells`, `print_neighboring_cells`, `print_edge`, and the slice loop with its 32-bit counter. Arbitrary: the text of a point, the order of the vertices in a cell. Assumed: CGAL's cells store their vertices and neighbours (`CellStore.Lawful`). Not modelled: `debug_print_cells` (log records) |
| `SliceIndex` | `collect_spacelike_facets` and `volume_per_timeslice` on facets as CGAL gives them (cell, index). Assumed: `CellStore.Lawful`; `std::stable_sort` is the stable sort, `std::multimap` inserts after equal keys |
| `SingleSite` | `try_23_move`, `try_32_move`, `try_62_move_impl`, `try_62_move`: prepare, then execute, at one given site |
| `Transcript` | the two `main` functions again with everything they write to standard output, each `fmt::print` able to fail after any number of bytes. Arbitrary (`Voice`): the usage text, version, dates, texts of floating-point numbers; for `assembledVoice` the construction's messages and the manifold's descriptions are the modelled ones. Not modelled: log records. Simplified: the construction is a pure function, so its messages are printed before it |
| `ViewerConsole` | `main` of src/cdt-viewer.cpp again with its lines on standard output (also that of `read_file`) and standard error; a handler whose own print throws aborts. Arbitrary: usage, version, `what()` texts. Not modelled: messages of Qt and OpenGL |
| `ViewerObserved` | the preparation of `main` of src/cdt-viewer.cpp when the files change between its six looks at them. Simplified: a file is read at one moment |
| `Quickstart` | examples/cpp_api_quickstart.cpp with its files, standard output and standard error; every print and file operation can fail. Arbitrary (`QuickHost`): the library, the two validity tests, the values of the literals `0.6L`, `1.1L`, `0.1L`, `what()` texts. Not modelled: log records. Simplified: the construction is a pure function, so its messages are printed before it |
| `Processes` | `cdt` and `initialize` by their single accesses to the file system (src/cdt.cpp, src/initialize.cpp, the write functions of include/Utilities.hpp), and an operating system that interleaves any number of them. Simplified: a file is read in one step; an open file is its name (this matters only for processes that write the same names); each process has its own faults |
| `CommandLine` | The option tables of cdt.cpp:89-120, initialize.cpp:68-86, cdt-viewer.cpp:1047-1056 and the three programs from their words on. The reading of the words follows Boost.Program_options in its default style (long names, abbreviations, letters, groups, `--`), from knowledge of that library: its source is not in /repo. Arbitrary (`CastFloats`): the conversion of texts to floating-point numbers. Simplified: the text of an exception is not kept, only that one is thrown |
| `AlwaysProgram` | the artifacts of `MoveAlways_3` and the `write_file` overloads taking a universe and optionally a seed and a pass. Arbitrary: as for `Program`. Assumed of the engine: it does not change the seed of the generator (`KeepsSeed`; `Random` has no operation that does) |
| `Bistellar` | `prepare_bistellar_flip`, `bistellar_flip_impl`, `bistellar_flip`, `find_pivot_edge`, `get_vertices` on well-formed handles of the triangulation (null and foreign handles are refused by the code and have no counterpart). `get_vertices` returns its container in point order instead of hash order. |
| `Radius` | `squared_radius`, `expected_timevalue`, `check_vertices`, `expected_radius`, `does_vertex_radius_match_timevalue` in rounded `double` arithmetic; `sqrt` and `pow` are parameters. No fused multiply-add. |
| `Diagnostics` | `has_consistent_derived_state`, `is_correct`, `is_correct_with_diagnostics` on objects of the `Values` model, with handles. The lock binding test is covered by C42. |
| `CausalVertices` | `make_causal_vertices`, `Delaunay_state(Causal_vertices)`, `FoliatedTriangulation(Causal_vertices, …)` for triangulations of dimension three; CGAL's insertion is a parameter that keeps points and infos. |
| `Assembled` | `make_triangulation`, the `Manifold(simplices, timeslices, …)` constructor, and the host of `cdt` with the modelled manifolds, moves, check, action and acceptance in place of parameters. |
| `LockBox` | The box of the lock grid: `pad_locking_box`, `default_locking_box`, `locking_box`. The grid itself (CGAL) is not modelled. |
| `RenderManifest`, `RenderScene`, `RenderImage`, `Viewer` | src/cdt-viewer.cpp: the manifest parser from the JSON value on, fixture validation, scene construction, outlining and image checks, `main` and the event loop. Arbitrary (`ViewerHost`): the JSON text format, SHA-256, path resolution, CGAL's streams and validity check, Qt's snapshot, image formats, order of events. Simplified: triangle orientation computed in exact rationals |
| `Repair`, `Population` | repair loops and `make_triangulation`, layers and point placement, size arithmetic |
| `Mpfr`, `Action` | Mpfr_value.hpp, S3Action.hpp, acceptance rule of Metropolis.hpp |
| `Float`, `RuntimeConfig` | Runtime_config.hpp |
| `Random`, `Fnv` | Random.hpp streams; FNV-1a |
| `Text`, `Trailer`, `Metadata`, `Fingerprint`, `Storage`, `WriteGuard`, `Filename` | persistence part of Utilities.hpp |
| `Ownership`, `Values`, `Atomic` | object lifetime: lock ownership, value semantics, atomicity of moves on a heap |

## Plan and method per property

| Property | Where | How |
| --- | --- | --- |
| C01–C06 | Props/Metropolis | state machine over an arbitrary engine (any manifold type, any, also throwing, candidate construction); invariants by induction over the list of calls |
| C07, C08 | Props/Acceptance, Hastings | any lawful rounding; monotonicity gives [0,1]; exact arithmetic gives the Metropolis–Hastings formula and detailed balance; positivity of site counts from the effects of the moves |
| C09, C10 | Props/Kernel, Balance | proposal kernel as counting of index draws; flows balance iff the reverse proposal can return; counterexample for the unrestricted claim |
| C11, C12, C17, C18 | Props/Command | induction over the queue, with exceptions; counter algebra with int32 range |
| C13–C16 | Props/Run | induction over passes; observed runs |
| C19–C25 | Props/Moves, Preserve, Reverse | tetrahedra as 4-element vertex sets; one general cavity-replacement theorem, instantiated with a finite pattern per move; histories by induction |
| C26 | Props/Atomic | heap of manifold objects; invariant at every intermediate moment of a call |
| C27–C30 | Props/Sites | star/link classification |
| C31 | Props/Slice | exact condition on the centroid; counterexample |
| C32 | Props/CheckMove | decision logic |
| C33, C34 | Props/Search | search-loop invariants, canonical order |
| C35, C36, C41 | Props/Classify | classification over time quadruples; caches as filters |
| C37–C39 | Props/Repair | loops with termination measure; counterexample at the pass limit |
| C40 | Props/Layers | real arithmetic of radii |
| C42, C43 | Props/Ownership, Values | heap models, induction over operation histories |
| C44–C46 | Props/Action | rounding-error-free structure: ranges by magnitude bounds; closed forms in exact arithmetic |
| C47–C50 | Props/Config, Population | validation as `Except`; explicit 32/64-bit limits |
| C51 | Props/Random | streams as (seed, stream, position) over an arbitrary engine |
| C52, C53, C59 | Props/Trailer, Metadata, Filename | writer/parser inverse proofs over character lists |
| C54–C56, C60 | Props/Storage | file system as a map, a crash after every prefix of operations, any failing step; `Props/Digest`: the digest is the published FNV-1a function (`Spec/Digest`, on natural numbers) |
| C57 | Props/WriteGuard | interleavings of threads over the mutex and the per-thread flag |
| C58 | Props/Fingerprint, FingerprintWork | canonical labelling search is invariant under relabelling; its work is bounded by a function of the number of nodes and of distinct labels (refinement merges no colours, individualization adds one) |
| C61–C63 | Props/Simulation | composition of the above along the actual trajectory of a run |
| C69–C72 | Props/Viewer | inversion of the parser into an independent field-by-field schema (`Spec/RenderManifest.Means`), both directions; image loops by a general lemma on loops that only paint one colour; scene by sorting lemmas; program by inversion |
| C73, C74 | Props/AlwaysProgram | invariant of the pass loop: what is written is what was due, still stored, nothing else touched; replay because the artifact of a pass is determined by it up to the time in its name |
| C75 | Props/Bistellar | an edge with four finite cells has a four-cycle link (`link4`), two TDS flips compute the exchange whichever end of the new edge CGAL finds first; counts, validity and reversal through the cavity pattern `p44` with an invented time function |
| C76 | Props/Radius | forward error analysis with relative error 2⁻⁵³ per operation (`Spec.Accurate`, `Spec.AccurateMath`); binary64 with subnormals and overflow is built and proved to qualify (`Fixture/Binary64`) |
| C77 | Props/Diagnostics | invariant of reachable worlds from C43: members are always the tagged caches of their body; then each diagnostic comparison is an identity |
| C78 | Props/CausalVertices | insertion contract; the constructor rewrites every time value from the radius, so the rebuilt triangulations are equal |
| C79 | Props/Precision | forward error analysis of all 52 operations with relative error 2⁻²⁵⁶ each (`Rounding.Precise`, `Lemmas/Precision`, `Lemmas/ActionError`); 256-bit rounding to nearest is built and proved to qualify |
| C80 | Props/AlphaOne | numeric enclosures of the four transcendental constants (sine triple-angle, exponential series, π to six digits), then linear in couplings and counts; C79 carries it to the programs; α = −1 over ℂ with explicit branches |
| C81 | Props/Whole | C61 transitions along the whole trajectory of the program of C64–C66 with the modelled engine; construction by the repair contracts C37–C39; the stored form of a state is related to it by `Depicts`; the concrete acausal start is evaluated in the kernel |
| C82 | Props/LockBox | the sides of the accumulated box are the extreme coordinates (induction over the points); monotone rounding for coverage, exact integers for strictness, the error bound of `Accurate` for the margin; width lost by an explicit instance in binary64 |
| C83 | Props/Transition | `resolve` is unfolded with the real engine; the unique site of C09, the counts being invariant under `SameManifold`, and causality of the target give an exact iff; the probability by counting (site number, trial value) pairs; the balance by C10 and the error bound of C79 |
| C84 | Props/Topology, Props/TopologyRun (Spec/Pachner) | the face exchanges of C19–C23, placed on labels, are checked to be one or two bistellar moves by kernel evaluation over labels; stars by closure under faces; invariants of bistellar moves (Euler characteristic by the alternating sum over a join, closedness, symmetry) proved for all dimensions; histories by induction with C24; runs and artifacts through `Next.steps` of C61/C81. Pachner's theorem itself (bistellar equivalence = PL homeomorphism) is not formalised |
| C85 | Props/Topology, Props/TopologyRun | the simplices exchanged that lie in one slice form a two-dimensional bistellar move (label evaluation); the accepted (2,6) vertex is on its slice by C21; the slice of a flip has vertices above and below, so the extreme slices are fixed (with the slices of C24) |
| C86 | Props/FourFour | equal counts give the same rounded action and proposal probability, so the quotient is rnd 1 and the difference rnd 0 (or NaN, which compares as not less than one); the difference of the tallies is invariant under one transition, hence under runs and histories of calls |
| C87 | Props/AlwaysWhole, Lemmas/SnapshotLive | the checkpoints of C73 with the states of C63 (every pass total, every state reached by moves), `Depicts` and the read-back of C53/C65; success by an invariant of the pass loop under which no operation fails; the generator's seed is shown to be kept by the modelled moves |
| C88 | Props/Pipeline | the artifacts of C64, C68 and C73 read back by `readFile_iff`/`parsePayload_write` at any copy; the viewer is deterministic, so what it validates is that triangulation (C69); conversely `prepareScene` is shown to accept everything `Validated`, with the counts of the artifact's manifest transferred through `validateMetadata`.  The viewer host shares codec and number format with the writers |
| C89 | Props/Identity, Spec/FingerprintText, Lemmas/FingerprintText | the digested texts are specified without the search (`PlacementText`, `TopologyText`); decoding the lines (separators do not occur in points, lengths are prefixed) recovers the labelled incidence structure up to renumbering, in both branches; a difference of texts with equal digests is named a collision.  Read-back, crash and manifest corollaries through C55 and C60.  That points are printed without `:`, `;` and byte 255 is a hypothesis (true of `fmt`'s numbers) |
| C90 | Props/Sampler, Lemmas/SamplerProgram, Spec/SamplerProgram | invariant of the pass loop as for C64, for an object made with any arguments and used in any way since (`UsedFrom`, an inductive history of calls); couplings, cadence and record are shown not to change in use.  An example shows that a second run of one object goes on with the generator: its checkpoints name the same seed and stream but are other states |
| C91 | Props/Console, Spec/Console, Lemmas/Console | the text is specified from the history (`runText`), not from counters; induction over passes with a failing print possible at every call (`Tells`); the counters agree with the history by C13–C16; injectivity by delimiting decimal numbers; erasure by a simulation with the silent run (`Erases`) |
| C92 | Props/Portrait, Spec/Portrait | the text is specified from the complex (`census`, `sliceArea`, `TimeRange`); C36 and C41 give the numbers; injectivity as for C91; the reports of `MoveCommand` through C11 |
| C93 | Props/Transcript, Spec/Transcript, Lemmas/Transcript*, Lemmas/ConsoleRun, Lemmas/PassHistory | the transcript is specified from the configuration, the trajectory and the file names (`cdtTranscript`); C91's `Tells` with the trajectory's history gives the run's part, C64/C65's `LogOk` the files, C81 and C92 the portraits; erasure by simulation with `cdtMain` and `initializeMain` |
| C94 | Props/ViewerConsole, Spec/ViewerConsole, Lemmas/ViewerConsole | the lines are specified from the fixture read and the image found (`confirmationText`, `imageText`), not from the manifest; one case analysis of the stages of the run with every print allowed to fail (`viewerRun_cases`) |
| C95 | Props/Representation, Spec/Representation, Lemmas/Congruence | every site test and execution of `Moves` is shown equal on two representations (`prepare_congr`, `execute_congr`); sorting and `nth_element` forget the storage order; the observations of the two objects agree (`view_congr`); runs by induction. Hypotheses: `PointsOnly` (CGAL's orientation tests read the manifold only) and `Sound` (its part `QuietInfinity` for the (2,6) partner test) |
| C96 | Props/Stationary, Spec/Stationary | the transition matrix is defined by counting (`stepMass`), its rows sum to one because the sites of different results differ (C09), it does not depend on the representation (C95), its flows balance up to ε (C83); a stochastic matrix does not increase the distance, and the imbalance of the Boltzmann distribution is at most 2ε. The family {two tetrahedra, three tetrahedra on five points} meets all hypotheses. The hypothesis `undone` fails for moves like that of C10's counterexample; irreducibility and mixing are not claimed |
| C97 | Props/Session, Spec/Session, Lemmas/SamplerLive | induction over sessions (inductive `Session`: any calls on any manifold obtained so far, any disk), one call by C61 (transitions) or C90 + the trajectory lemma of C81 (runs); files as in C81; the run returns because no transition throws (C61), every write succeeds (C53 round trip of the exact record) and the counts fit.  Example: an octahedron flipped by two single transitions, then run.  The overwriting of a checkpoint by a second run in the same second is proved on a concrete object |
| C98 | Props/AnyLibrary, Spec/AnyLibrary | two environments (`SameDraws`: same geometry, label, index and shuffle; different enumeration order and `nth_element`). A triangulation object gives equal answers in both because every selection goes through a canonical order; combined with C95 for two representations; transitions, queued moves, batches and passes by induction. Example: the fixture and the fixture backwards. |
| C99 | Props/Workshop, Spec/Workshop | induction over the inductive `Workshop` (manifolds and `MoveCommand` objects at hand; constructors for checked moves, commands, unconditional runs, Metropolis calls); executing any queue by induction over its codes (`executeLoop_codes`), runs by C73/C87, calls by C97. Example: propose, a command ending at an invalid code, a `MoveAlways_3` run and a Metropolis transition in a row. |
| C100 | Props/Links, Lemmas/Links, Spec/Links | spheres (bistellar moves from the boundary of a simplex), manifolds (all vertex links spheres) and connectedness defined without the model; a bistellar move changes the link of a vertex by a bistellar move of one dimension less, or not at all, or the vertex is new with a simplex boundary as link (`Bistellar.link_*`); so moves preserve all three, in both directions; C84/C85/C99 carry this to histories and programs.  Non-vacuity: `Fixture.onion` is shown to be a 3-sphere by five explicit moves |
| C101 | Props/Convergence, Lemmas/Chain, Spec/Convergence | general finite chains: connected and lazy at one state, so some power of the matrix has no entry below t^N (`Route`), which contracts the distance of distributions (`contract`), so there is one stationary distribution and geometric convergence (`stationary`); for the program: the member with most vertices is lazy because no (2,6) result is in the family (`lazy_member`), each move between members has probability at least its site's share of the exact acceptance probability minus the C79 error (`edge_mass`); C96 bounds the drift of the Boltzmann distribution. Limitation: the family is finite and closed under moves |
| C102 | Props/OpenFamily, Spec/OpenFamily | move type and site number determine the result of a transition (`reaches_one`, from C09), so the ways to members and the ways out are disjoint sets of (site, trial value) pairs (`fractions_le`); detailed balance to within rounding for joined pairs (C83), one-way pairs contribute their whole flow, `spread_open` sums this; example: the ball of finding 1, whose (3,2) move cannot be undone |
| C103 | Model/Quickstart, Spec/Quickstart, Lemmas/Quickstart, Lemmas/QuickLive, Props/Quickstart | each statement of the program `Does` one of: goes on with the error output untouched, returns 1 after a message, throws; composed with `Does.next` into `quickBody_does`; `Goes` shows the other direction, that nothing stops the program; example: ten flips of the octahedron |
| C104 | Model/CommandLine, Spec/CommandLine, Lemmas/CommandLine, Lemmas/CommandStore, Props/CommandLine | the reader agrees with an inductive grammar of command lines (induction on the number of words, both directions) for every orderly table; the tables of the programs are orderly by evaluation; storing agrees with `SettingsOf` field by field; the examples of the usage texts are evaluated |
| C105 | Model/Repair, Props/IsFixed | on a constructed object the vertex and cell repairs are the identity; the time-value pass removes `Offends` vertices (C38_bad_vertex_choice); strict inclusion of the vertex sets gives termination |
| C106 | src/cdt.cpp, command line, manifest | `Spec/Repeat` names the quoted lines, the options made of them, what it takes for the command line to read the float texts of the manifest, and that a universe reports the radius and spacing it was built with. `C106_repeat` joins C104 (words to options), C64 (every manifest true), C23's text of the manifest and C67 (replay); `C106_foliation_kept` proves the last hypothesis of the assembled program. |
| C107 | src/cdt.cpp, src/initialize.cpp, writing | `Model/Processes` gives both programs again by their single accesses to the files; `cdt_steps` and `initialize_steps` prove that, run alone, these are the programs of `Model/Program`. `Spec/Directory` names jobs, their seeds and what they do alone. Every access of a program is to a name with its seed (`job_within`), names with different seeds differ (C59), so under any schedule each process goes through the states of its run alone (`separate`): `C107_shared_directory`, `C107_finishes`. `C107_same_seed` is a schedule that loses an artifact when the seeds are equal. |
| C108 | src/cdt.cpp, src/initialize.cpp, crashes | `Spec/Killed` says what an artifact name, an artifact in place and one being published are. `Lemmas/Killed` follows the step programs of `Model/Processes` access by access with an invariant (`cdt_moments`, `initialize_moments`), and `separate` (C107) carries it to company: `C108_any_moment`, `C108_any_moment_initialize`; with the round trip of the payload (`parsePayload_write`) and the trajectory of the assembled program (`whole_trajectory`), `C108_readable` and `C108_causal`. |
| C109 | src/cdt-viewer.cpp among other programs | `Model/ViewerObserved` is the preparation of the viewer with six states of the files; with nobody writing it is that of `Model/Viewer` (`prepareObserved_still`). `Spec/Watch` says how the states come from a schedule and what it is to agree with a render manifest. `C109_undisturbed` follows from C107, `C109_completed` and `C109_completed_initialize` from C108 and the fact that logs grow, `C109_drawn` from C108 and C59 (a name determines its pass). `C109_replaced` is the case of a name that was not free (finding 36). |
| C110 | power loss | `Spec/PowerLoss.AfterPowerLoss`: every name independently has lost its file or holds a beginning of a contents it had at some moment of the schedule. `Lemmas/PowerLoss`: the fields of the beginning of a manifest are the first fields of the manifest, perhaps with the last value cut (`fields_prefix`); the size and digest of the payload come first and `topology.fnv1a64` comes last, so a beginning that is accepted names the same payload and lacks no line. A cut payload has not the recorded size. With C108 and C59 (a name determines its pass). `C110_lost_manifest` is the case without manifest (finding 37). |
| C111 | restart | `Spec/Restart`: the six lines of a manifest that say how the initial universe was built, and the words for `initialize`. `start_settings` shows from the manifest's text (C25's printed values are read back) that the words mean the original settings; C104 gives the parsed options, C68 what `initialize` writes, C66 what `cdt` started from. Assumes that floats printed in the manifest are read back (`CastsBack`, as in C106) and that the constructor keeps radius and spacing (`KeepsFoliation`). |
| C112 | manifest lines | `Spec/ManifestLines` lists the lines of the two kinds of manifest as text, from the configuration, the trajectory and the stored triangulation, without the `Metadata` record or its printer. From C66/C68 (`Truthful`, `InitialTruthful`) by printing the record line by line. |
| C113 | artifact names | `Spec/ArtifactName.NameTells`: the name as text, with zero-padded and six-decimal numbers specified by what they denote. From C66/C68 and the normal forms of `make_filename` (`Lemmas/Filename`). The times are readings of the clock made during the run, in the order of writing (`Lemmas/ArtifactTime`: an invariant of the run). With the modelled manifolds the numbers are the census and time range of the triangulation (`Props/SummaryTrue`). |
| C114 | Props/Listing | `Spec/Listing` gives the text of a vertex, corner, tetrahedron, edge; the listing is the texts of a list that contains every finite simplex once. Cell types from C36; the neighbour is the only other cell at the facet because the complex is closed; induction over the slice loop with its 32-bit counter |
| C115 | Props/SliceIndex | filtering a stable sort by key keeps the order of the list (induction); inserting sorted entries into a multimap appends; refinement to the set-based cache of C36 |
| C116 | Props/SingleSite | the site lemmas behind the effect theorems of the moves (C01–C04), the exact prepare and execute conditions of Lemmas/Sites and Lemmas/Succeed; case split on the two steps |
| C64–C68 | Props/Program | invariant of the pass loop over an arbitrary disk (every fate), with the provenance code written out field by field in `Spec/Program.truth`; liveness (C66_succeeds) separately |

C10 and C39 are false of the code as stated without restriction; both have the negation proved on a
witness and the true part proved (suffix `_partial`).

## What is modelled and what is not

Modelled: the functions named in the table, including their failure and exception paths.

Not modelled: log records, and console text outside `Console`, `Portrait`, `Transcript`, `ViewerConsole` and `Quickstart`;
`Settings.hpp`, `Torus_d.hpp`, `Periodic_3_*.hpp`, `Formatters.hpp` (declarations
and type aliases only); the Delaunay/Qt drawing part of `cdt-viewer.cpp`; the texts Boost.Program_options
prints; the insides of CGAL, MPFR, PCG and the standard
library; parallel insertion (TBB) inside CGAL; memory exhaustion; after a power loss, files with garbage or zeros in place of data (C110 models
lost files and truncated files).

## Assumptions about external code

* Boost.Program_options reads words as `Model/CommandLine` says (default style, no positional options
  described), and `boost::lexical_cast` to 64-bit integers takes an optional sign and digits, where the
  unsigned conversion negates modulo 2⁶⁴ after a minus sign.

* CGAL TDS: `neighbor`, `incident_cells`, `incident_edges` have their documented meaning;
  `flip` refuses when the edge or facet it would create already exists (and, for the geometric
  version, when its orientation test fails: an arbitrary Boolean of the model) and mutates only when
  it returns true; `is_valid` accepts exactly closed pseudo-manifolds.
* A vertex is identified with its point.  The centroid inserted by a (2,6) move is assumed not to be
  a vertex yet (`FreshCentroids`, a hypothesis of the theorems that need it).
* Cells at infinity never carry the label 31 (`QuietInfinity`): CGAL leaves their info unset and the
  library never writes it.
* Iteration order of CGAL and of standard containers is arbitrary; `nth_element`, `shuffle` and
  uniform index draws are arbitrary functions with the guarantees of the standard
  (`Env.Lawful`); uniformity itself is used only in C09/C10, where indices are counted.
* Delaunay `remove` removes exactly the given points (`RepairEnv.Lawful`).
* MPFR: any rounding that is monotone, never NaN on reals, exact on integers and powers of two in
  range (`Rounding.Lawful`); signed zeros are not distinguished.
* `double` in the geometry of C31 and C40 is replaced by the reals; C76 does the radius computations of C40
  in any rounding with the error of binary64; elsewhere (C47–C49) a float
  format is any monotone, never-NaN rounding that is exact on 53-bit integers; out-of-range
  float-to-int conversion wraps.
* `int` subtraction in `expected_cell_type` and the counts are unbounded integers; where the
  32-bit range matters it is a hypothesis (`Counts32`, `Roomy`, C17).
* Text of floats (C53): any conversion functions with round-trip and alphabet
  (`FloatTextLawful`).  Build strings are non-empty single lines.  `%f` rounds half to even.
* File system: operations are atomic and ordered (process crash; for power loss see C110), `rename`
  replaces atomically, no aliasing of paths, no other process.  CGAL's body serialisation is an
  abstract codec that decodes what it encodes (`Faithful`).
* `std::mutex`/`thread_local` have their standard meaning (C57).
* CGAL copy copies the lock pointer, move leaves it in the source, swap exchanges it (C42); handles
  survive move and swap; a copy may iterate in another order; a moved-from manifold is only
  assigned, swapped or destroyed (C43).
* `std::move` into `make_manifold` is a new body plus destruction of the old one (C26).

## Findings

1. (2,3) proposals use only the first qualifying facet of a cell: detailed balance fails
   (C29_two_three_selects_first_site, C25_three_two_may_be_irreversible, C10_detailed_balance_fails).
2. The label written by (2,6) is overwritten from the centroid's radius; `do_26_move` can return
   success with an incorrect manifold (C31_do_26_move_may_leave_slice); `check_move` catches it
   (C21_check_move_iff_slice).
3. Redundant checks: time difference in (2,3)/(3,2); partner uniqueness in (2,6) (C30); degree 5 in
   (6,2) (C27_counts_suffice); `check_move` always accepts (2,3), (3,2), (6,2), (4,4) results.
4. `make_triangulation` stops after 50 passes and only asserts the result
   (C39_pass_limit_leaves_acausal).
5. A NaN ratio would give acceptance 1; unreachable on validated inputs (C07_unit_interval).
6. `fix_cells` reports a repair forever on acausal cells (C37_fix_cells_reports_without_change).
7. Persistence: a crash between the two renames leaves a new manifest with an old payload, which is
   then rejected; failure of the second rename destroys the old artifact's readability
   (C56_late_rename_failure_destroys_old); failure to remove a stale manifest is ignored
   (C60_stale_manifest_not_noticed); readers and writers use different mutexes
   (C55_concurrent_reader).
8. 32-bit counters overflow (C17_overflow_boundary).
9. An exception escaping `attempt_transition` breaks the identities (C01_exception_breaks_identities);
   C61 shows it cannot happen on manifolds in order.
10. An undeclared move code in `MoveCommand` terminates the program (C11_undeclared_code_terminates).
11. The seeded `MoveAlways` constructor uses stream 0; a checkpoint may record the default stream.
12. The viewer rejects evolved, non-Delaunay states.
13. `collect_edges` asserts Delaunay validity in debug builds.
14. `find_adjacent_31_cell` does not exclude infinite neighbours (C30_infinite_partner_accepted).
15. The (2,6) centroid may coincide with an existing point; nothing checks it.
16. `Manifold::updated()` on an empty manifold drops radius and spacing (C43_updated_empty).
17. File names carry radii with six decimals (C59_close_radii_collide) and omit couplings and kind.
18. An empty build-configuration string makes manifested writes fail.
19. A payload without a trailer is accepted with default labels when there is no manifest.
20. Without a manifest the writer does not compare placement fingerprint and time bounds of the
    re-parsed payload.
21. The topology fingerprint can throw (search budget) on highly symmetric states.
22. Copying a moved-from `FoliatedTriangulation` bypasses the empty-source shortcut.
23. `saveSnapshot` does not report failure and the old output is not removed first, so an image left by
    an earlier run can be accepted (C69_stale_image_accepted).
24. A positive point size below the range of `float` is accepted and becomes 0
    (C70_size_may_underflow).
25. Checkpoints of `MoveAlways_3` always name stream 1 as the transition stream, but a run constructed
    from a seed draws from stream 0, so the manifest does not say how to replay it
    (C74_recorded_stream and the example after it). They also give the current numbers of simplices and
    timeslices as the requested ones (`snapshotRecord`).
26. `bistellar_flip` takes `top` and `bottom` but uses only `bottom`; it does not require them to be opposite in the
    ring, and at a (4,4) site naming the two spatial corners makes it return an acausal triangulation
    (C75_top_does_not_matter, C75_not_causal). `do_44_move` never does this because its preparation is stronger.
27. A spacing below the last place of the radius is accepted by the configuration and by `make_foliated_ball`, but all
    layers then coincide and every vertex is relabelled with time 1 (C76_absorbed, example with radius 1, spacing 2⁻⁶⁰).
28. `does_vertex_radius_match_timevalue` compares squared radii with a relative tolerance of 1%, so from a radius of 250
    spacings on it does not separate neighbouring slices (C76_match_ambiguous).
29. The time values passed to `FoliatedTriangulation(causal_vertices)` are discarded: the constructor overwrites them from
    the radii (C78_times_ignored).
30. `cdt` checks neither the universe it has built nor the result beyond `tds().is_valid()`: from an acausal universe
    (which the repair budget can leave, finding on C39) it runs, exits with status 0 and leaves acausal artifacts
    (C81_acausal_start_not_noticed).
31. `cdt-viewer --output` told to quit before the image is made (`QApplication::quit`, e.g. from the session) prints
    "Rendered WxH artifact to …" and exits 0 although there is no image (`C94_quit_announces_nothing`).
32. Two runs of one `Metropolis_3` (or `MoveAlways_3`) object in the same second on universes of the same size write their
    checkpoints of equal pass number under one name (make_filename has a resolution of one second, Utilities.hpp 1621-1622):
    the first is silently replaced (`C97_second_run_overwrites`).
33. No positional options are described and none are looked for: a word that is neither an option nor the value of one is
    dropped without a message, so `cdt -n 32 000 …` runs with 32 simplices (`C104_stray_words` and the example after it).
34. `--seed=-1` is accepted and is the seed 2⁶⁴ − 1 (`C104_negative_seed`): the text is not checked before
    `boost::lexical_cast`.
35. Two processes with the same seed that write in the same second write the same file names, temporary ones
    included (include/Utilities.hpp:1515-1614). One can report success while its artifact is what the other left
    when it was killed, even an empty file (`C107_same_seed`).
36. The viewer computes the SHA-256 of the fixture and then reads the fixture again (src/cdt-viewer.cpp:1077, 1092):
    if the file is replaced in between, it draws a file that has not the digest of the render manifest (`C109_replaced`).
37. The programs never call `fsync` (include/Utilities.hpp:1502, 1558 flush the stream only), and a payload without manifest and
    without labels is accepted as an unlabelled triangulation (lines 1297-1305): after a power loss that loses the manifest and cuts
    the payload before its labels, `read_file` returns a triangulation with default labels (`C110_lost_manifest`).
38. `print_volume_per_timeslice` counts with a 32-bit `j` up to and including `max_time()`
    (include/Foliated_triangulation.hpp:1961): if a vertex has the label `INT_MAX`, `++j` overflows after the last line,
    which is undefined (`C114_slices_end` and the example after it).

## Testing the theorems

`seeded/LOG.jsonl` records, one line per attempt, an edit of a model definition as a realistic bug
would make it, the claim it breaks, the theorems that stopped proving, and what was tightened.
