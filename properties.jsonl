{"id": "C01", "title": "Metropolis accounting identities", "statement": "After any sequence of Metropolis transitions, for every one of the five move types: proposed = accepted + rejected, attempted = succeeded + failed, attempted = proposed, accepted <= succeeded, and the recorded transition count equals the total number of proposals.", "quantifier": "every starting manifold, every sequence of moves/trials/random draws, every pattern of candidate failures", "why_tests_cant": "tests sample finitely many short runs; the identities must survive every interleaving of failure kinds and acceptances", "anchors": ["include/Metropolis.hpp:resolve_transition", "include/Metropolis.hpp:RunStatistics", "include/Move_tracker.hpp:MoveTracker", "docs/metropolis-hastings.md#Counters"]}
{"id": "C02", "title": "Only accepted proposals change the state", "statement": "A transition replaces the current manifold exactly when it reports METROPOLIS_ACCEPTED; every other outcome (inapplicable, execution failure, failed postcondition, Metropolis rejection, unknown move) leaves the manifold exactly as it was.", "quantifier": "every manifold, move, trial value and candidate-construction result", "why_tests_cant": "a test can only compare a few failing sites", "anchors": ["include/Metropolis.hpp:resolve_transition", "include/Metropolis.hpp:attempt_transition"]}
{"id": "C03", "title": "Every committed state is a checked one-move successor", "statement": "Along any run, each committed manifold differs from the immediately preceding committed manifold by exactly the published count delta of the accepted move, passes the structural check and keeps radius, spacing and time bounds; hence the final counts equal the initial counts plus the sum of the deltas of the accepted moves.", "quantifier": "every run length, history and random stream", "why_tests_cant": "needs induction over the history", "anchors": ["include/Metropolis.hpp:resolve_transition", "include/Ergodic_moves_3.hpp:check_move"]}
{"id": "C04", "title": "Decisions use the last committed geometry", "statement": "Whenever an acceptance probability is computed, the 'current' geometry it uses is that of the manifold committed by the preceding transition, and after every transition the strategy's cached geometry equals that of its current manifold.", "quantifier": "every history of attempts", "why_tests_cant": "stale-cache bugs need particular histories", "anchors": ["include/Metropolis.hpp:resolve_transition", "include/Metropolis.hpp:RunStatistics"]}
{"id": "C05", "title": "Illegal trials are rejected without side effects", "statement": "attempt_transition(move, trial) with a trial that is NaN, infinite or outside [0,1] throws and changes neither manifold, counters, trace, geometry nor random stream; an unknown move type is reported as EXECUTION_FAILED and changes nothing.", "quantifier": "every trial value and every strategy state", "why_tests_cant": "the value space is continuous and the state space unbounded", "anchors": ["include/Metropolis.hpp:attempt_transition", "include/Metropolis.hpp:resolve_transition"]}
{"id": "C06", "title": "Transition trace is a faithful digest of the ordered history", "statement": "The persisted trace fingerprint equals FNV-1a-64 of the ordered (move, outcome) bytes of all transitions since the run began; two histories of equal length that differ in exactly one recorded byte always have different fingerprints; extending a history extends the digest.", "quantifier": "every history of transitions", "why_tests_cant": "universally quantified over histories; collision-freeness for single-byte changes cannot be sampled", "anchors": ["include/Metropolis.hpp:record_transition"]}
{"id": "C07", "title": "Acceptance probability is the Metropolis-Hastings rule", "statement": "For every pair of states with positive proposal counts, the acceptance probability lies in [0,1], equals min(1, exp(S(T)-S(T')) q(T|T')/q(T'|T)) and satisfies detailed balance e^{-S(T)} q(T'|T) A(T->T') = e^{-S(T')} q(T|T') A(T'->T) for the documented q.", "quantifier": "every pair of geometries, every coupling", "why_tests_cant": "real-valued identity over an unbounded domain", "anchors": ["include/Metropolis.hpp:acceptance_probability", "include/Metropolis.hpp:hastings_ratio", "include/Metropolis.hpp:action_ratio", "docs/metropolis-hastings.md"]}
{"id": "C08", "title": "Hastings ratio is well defined for every checked candidate", "statement": "For every candidate that passes the move postcondition the forward and reverse proposal-site counts are both positive, so computing the acceptance probability never raises a logic error.", "quantifier": "every manifold and successful candidate of each of the five moves", "why_tests_cant": "needs the count deltas for every complex", "anchors": ["include/Metropolis.hpp:hastings_ratio", "include/Metropolis.hpp:proposal_site_count", "include/Ergodic_moves_3.hpp:check_move"]}
{"id": "C09", "title": "Proposal kernel is the documented one", "statement": "Each proposal picks one of five move types uniformly and then exactly one raw site uniformly from the documented domain; an inapplicable site is a rejected self-transition, never silently replaced by another site; and the documented q(T'|T)=1/(5 C_m(T)) is the true probability of proposing T' from T (so that the reverse site is unique).", "quantifier": "every state and every neighbouring state", "why_tests_cant": "probability statement about all states", "anchors": ["include/Ergodic_moves_3.hpp:propose_23_move", "include/Ergodic_moves_3.hpp:canonical_random_element", "include/Metropolis.hpp:proposal_probability", "docs/metropolis-hastings.md#proposal-kernel"]}
{"id": "C10", "title": "Detailed balance of the implemented chain", "statement": "For every pair of causal triangulations T, T' the implemented transition probability satisfies exp(-S(T)) P(T->T') = exp(-S(T')) P(T'->T).", "quantifier": "every pair of states connected by a move", "why_tests_cant": "needs exact enumeration of proposals in every state", "anchors": ["include/Metropolis.hpp:resolve_transition", "include/Ergodic_moves_3.hpp:prepare_two_three"]}
{"id": "C11", "title": "Queued moves run first-in first-out with exact accounting", "statement": "Executing a command with n queued moves and no exception empties the queue, applies the moves in the order they were enqueued, and gives attempted = n = succeeded + failed with per-type agreement; failed moves leave the manifold untouched.", "quantifier": "every queue content and every per-move result", "why_tests_cant": "queue lengths and outcome patterns are unbounded", "anchors": ["include/Move_command.hpp:execute", "include/Move_command.hpp:enqueue"]}
{"id": "C12", "title": "Exception safety of a command batch", "statement": "If constructing a candidate throws while a batch executes, the manifold is the one committed by the moves before it, the throwing move is still at the head of the queue, and the counters are succeeded + failed + 1 = attempted; re-executing retries exactly the remaining moves.", "quantifier": "every queue, every position and history of exceptions", "why_tests_cant": "crash positions are unbounded", "anchors": ["include/Move_command.hpp:execute"]}
{"id": "C13", "title": "Each pass attempts exactly N3 moves", "statement": "Each pass of a run performs exactly as many attempts as the number of simplices at the start of that pass, and a run of P passes performs exactly the sum of these numbers.", "quantifier": "every starting manifold, number of passes and evolution of N3", "why_tests_cant": "depends on the whole history", "anchors": ["include/Move_run.hpp:execute_move_run", "include/Move_always.hpp:execute_pass", "include/Metropolis.hpp:execute_pass"]}
{"id": "C14", "title": "Checkpoint cadence", "statement": "A run of P passes with checkpoint interval C produces checkpoints exactly after passes C, 2C, ..., floor(P/C)*C in order, counts floor(P/C) checkpoint events, and writes checkpoint files only when file output is enabled.", "quantifier": "every P and C", "why_tests_cant": "unbounded loop", "anchors": ["include/Move_run.hpp:execute_move_run", "include/Move_run.hpp:MoveRunCadence"]}
{"id": "C15", "title": "A run publishes all-or-nothing", "statement": "If anything throws during a strategy's run (move construction, reporting, checkpoint writing) the strategy's published counters, trace, geometry and checkpoint count keep their pre-run values; on success they describe exactly that run and nothing earlier.", "quantifier": "every exception point in every run", "why_tests_cant": "exception points are unbounded", "anchors": ["include/Move_always.hpp:operator()", "include/Metropolis.hpp:operator()", "include/Move_run.hpp:execute_move_run"]}
{"id": "C16", "title": "Cadence validation", "statement": "A cadence is constructible iff both passes and checkpoint interval are positive, and the diagnostics name the first violated field; therefore no run can divide by zero or loop zero passes.", "quantifier": "every pair of 32-bit integers", "why_tests_cant": "all integers", "anchors": ["include/Move_run.hpp:MoveRunCadence::parse", "include/Move_run.hpp:parse_move_run_cadence"]}
{"id": "C17", "title": "Counter arithmetic", "statement": "Adding trackers is exact, associative and commutative element-wise, total() is the sum over the five types, resetting yields zero, accumulating and then consuming results neither loses nor double-counts; no counter overflows in any run of fewer than 2^31 attempts.", "quantifier": "every tracker value and history", "why_tests_cant": "integer-range property over all histories", "anchors": ["include/Move_tracker.hpp:MoveTracker", "include/Move_run.hpp:accumulate_command_results", "include/Move_run.hpp:consume_command_results"]}
{"id": "C18", "title": "Failure classification", "statement": "Every structured move failure is reported as exactly one outcome: NO_CANDIDATE, INVALID_TOPOLOGY and CAUSAL_INVALIDITY as INAPPLICABLE, all others as EXECUTION_FAILED; no failure is ever reported as accepted, rejected-by-Metropolis or succeeded, and the successful/accepted predicates agree with the outcome.", "quantifier": "every failure and outcome value", "why_tests_cant": "finite but must be total under extension", "anchors": ["include/Move_outcome.hpp:outcome_from", "include/Move_outcome.hpp:MetropolisTransition"]}
{"id": "C19", "title": "(2,3) move effect", "statement": "Every successful (2,3) move replaces two tetrahedra sharing a timelike triangle by three around a new timelike edge, changes (N0,N1_SL,N1_TL,N2,N3_31,N3_22,N3_13,N3) by exactly (0,0,+1,+2,0,+1,0,+1), and leaves every simplex outside the cavity unchanged.", "quantifier": "every causal triangulation and every applicable site", "why_tests_cant": "complexes are unbounded", "anchors": ["include/Ergodic_moves_3.hpp:prepare_two_three", "include/Ergodic_moves_3.hpp:do_23_move", "include/Ergodic_moves_3.hpp:check_move", "docs/ergodic-moves.md"]}
{"id": "C20", "title": "(3,2) move effect", "statement": "Every successful (3,2) move removes one timelike edge and changes the same vector by exactly (0,0,-1,-2,0,-1,0,-1).", "quantifier": "every causal triangulation and applicable site", "why_tests_cant": "complexes are unbounded", "anchors": ["include/Ergodic_moves_3.hpp:is_32_movable", "include/Ergodic_moves_3.hpp:do_32_move"]}
{"id": "C21", "title": "(2,6) move effect", "statement": "Every successful (2,6) move inserts one vertex on the slice of a spacelike triangle and changes the vector by exactly (+1,+3,+2,+8,+2,0,+2,+4).", "quantifier": "every causal triangulation and applicable site", "why_tests_cant": "complexes are unbounded", "anchors": ["include/Ergodic_moves_3.hpp:prepare_two_six", "include/Ergodic_moves_3.hpp:do_26_move"]}
{"id": "C22", "title": "(6,2) move effect", "statement": "Every successful (6,2) move removes one degree-five vertex and changes the vector by exactly (-1,-3,-2,-8,-2,0,-2,-4).", "quantifier": "every causal triangulation and applicable site", "why_tests_cant": "complexes are unbounded", "anchors": ["include/Ergodic_moves_3.hpp:is_62_movable", "include/Ergodic_moves_3.hpp:do_62_move"]}
{"id": "C23", "title": "(4,4) move effect", "statement": "Every successful (4,4) move exchanges the diagonal of a spatial quadrilateral and leaves all of N0, N1_SL, N1_TL, N2, N3_31, N3_22, N3_13, N3 unchanged.", "quantifier": "every causal triangulation and applicable site", "why_tests_cant": "complexes are unbounded", "anchors": ["include/Ergodic_moves_3.hpp:is_44_movable", "include/Ergodic_moves_3.hpp:do_44_move"]}
{"id": "C24", "title": "Moves preserve causality and the manifold property", "statement": "Starting from a manifold whose public checks pass (closed complex, every tetrahedron of type (3,1), (2,2) or (1,3), every vertex on the slice of its radius), every manifold returned by a (2,3), (3,2), (6,2) or (4,4) move, and every manifold returned by a (2,6) move and accepted by check_move, is again such a complex with the same boundary triangles, the same Euler characteristic and the same set of time values; hence so is every manifold reached by any finite sequence of accepted moves. A (2,6) result that check_move rejects still is a closed complex with the same boundary and Euler characteristic.", "quantifier": "every foliated complex and every finite move sequence", "why_tests_cant": "needs induction over histories and all complexes", "anchors": ["include/Ergodic_moves_3.hpp", "include/Foliated_triangulation.hpp:is_structurally_correct", "docs/ergodic-moves.md"]}
{"id": "C25", "title": "Moves are reversible", "statement": "After a successful (2,3) move some draw of the (3,2) proposal returns exactly the manifold before it (when CGAL's orientation test accepts the created edge); after (4,4) some (4,4) draw does; after an accepted (2,6) some (6,2) draw does; after (6,2) some (2,6) draw restores the complex with the vertex at the triangle's centroid; after (3,2) the (2,3) move restores the manifold if and only if the created triangle is the first applicable facet of the created (2,2) tetrahedron (so some (3,2) moves cannot be undone).", "quantifier": "every complex and applicable site", "why_tests_cant": "universally quantified inverse law", "anchors": ["include/Ergodic_moves_3.hpp", "docs/metropolis-hastings.md"]}
{"id": "C26", "title": "Failed moves are atomic", "statement": "If any do_*/propose_* call fails, for whatever reason and however far construction progressed, the source manifold's topology, labels, counts and caches are unchanged.", "quantifier": "every manifold and every failure point", "why_tests_cant": "failure points unbounded", "anchors": ["include/Ergodic_moves_3.hpp:do_23_move", "include/Ergodic_moves_3.hpp:do_62_move", "docs/ergodic-moves.md"]}
{"id": "C27", "title": "The (6,2) site test is sufficient", "statement": "A vertex accepted as a (6,2) site (degree five, six finite incident tetrahedra, three (3,1) and three (1,3)) always has three same-slice neighbours forming a triangle, one neighbour above and one below, so the removal yields exactly one (3,1) and one (1,3) tetrahedron.", "quantifier": "every vertex star in every complex", "why_tests_cant": "combinatorial classification over all stars", "anchors": ["include/Ergodic_moves_3.hpp:is_62_movable"]}
{"id": "C28", "title": "The (4,4) site test is sufficient", "statement": "A spacelike edge accepted as a (4,4) site always has a four-cycle link with one vertex above, one below and two on the same slice, so the exchange is well defined.", "quantifier": "every edge star in every complex", "why_tests_cant": "combinatorial classification over all stars", "anchors": ["include/Ergodic_moves_3.hpp:is_44_movable", "include/Ergodic_moves_3.hpp:prepare_four_four"]}
{"id": "C29", "title": "The (3,2) and (2,3) site tests are sufficient", "statement": "A timelike edge accepted as a (3,2) site has a triangular link and flipping yields one (2,2) and one (3,1)/(1,3) tetrahedron; a (2,2)/(3,1) or (2,2)/(1,3) pair accepted as a (2,3) site always yields two (2,2) and one (3,1)/(1,3) tetrahedra.", "quantifier": "every edge star and facet pair", "why_tests_cant": "combinatorial classification over all stars", "anchors": ["include/Ergodic_moves_3.hpp:is_32_movable", "include/Ergodic_moves_3.hpp:prepare_two_three"]}
{"id": "C30", "title": "The (2,6) partner is unique", "statement": "In a foliated complex a (1,3) tetrahedron has at most one adjacent (3,1) tetrahedron and the shared triangle is spacelike, so the choice among candidates made by the code is forced and its spacelike check never fails.", "quantifier": "every foliated complex and cell", "why_tests_cant": "combinatorial", "anchors": ["include/Ergodic_moves_3.hpp:find_adjacent_31_cell", "include/Ergodic_moves_3.hpp:prepare_two_six"]}
{"id": "C31", "title": "The inserted (2,6) vertex lies on the facet's slice", "statement": "The vertex inserted by a (2,6) move that check_move accepts carries the time value of the spacelike triangle it subdivides. The move function itself reports success regardless, and the vertex is on the slice exactly when the centroid of the triangle rounds to the triangle's slice (radius at least R - S/2); there are foliated, even Delaunay, triangulations on which do_26_move returns a vertex on another slice.", "quantifier": "every spacelike triangle", "why_tests_cant": "depends on coordinates of all triangles", "anchors": ["include/Ergodic_moves_3.hpp:execute", "include/Foliated_triangulation.hpp:classify_vertices"]}
{"id": "C32", "title": "The postcondition check is exactly the published contract", "statement": "check_move accepts a (before, after, move) triple iff after is structurally correct, foliation parameters and time bounds are unchanged and all published count deltas hold; in particular no candidate accepted for one move type can be accepted for another.", "quantifier": "every pair of manifolds and every move", "why_tests_cant": "pairs of states are unbounded", "anchors": ["include/Ergodic_moves_3.hpp:check_move"]}
{"id": "C33", "title": "First-applicable search semantics", "statement": "do_*_move succeeds iff at least one raw site is applicable and executes; it fails with NO_CANDIDATE iff there are no raw sites; the returned error is the one of the last tried site; the result never depends on sites after the first success.", "quantifier": "every list of sites and every per-site result", "why_tests_cant": "unbounded site lists", "anchors": ["include/Ergodic_moves_3.hpp:do_23_move", "include/Ergodic_moves_3.hpp:do_44_move"]}
{"id": "C34", "title": "Canonical site choice is independent of storage order", "statement": "The site chosen for a proposal depends only on the set of raw sites and the random index, not on the iteration order of the triangulation's storage, and every site is chosen by exactly one index.", "quantifier": "every permutation of the site list and every index", "why_tests_cant": "n! permutations", "anchors": ["include/Ergodic_moves_3.hpp:canonical_random_element", "docs/reproducibility.md"]}
{"id": "C35", "title": "Cell classification is total and exact", "statement": "A tetrahedron's expected type is (3,1), (2,2) or (1,3) exactly when its vertices occupy two adjacent slices with 3+1, 2+2 or 1+3 vertices, and acausal otherwise; the classification is independent of vertex order.", "quantifier": "every assignment of four time values in every order", "why_tests_cant": "all integer quadruples", "anchors": ["include/Foliated_triangulation.hpp:expected_cell_type"]}
{"id": "C36", "title": "Count partition identities", "statement": "For every structurally correct triangulation N3 = N3_31 + N3_22 + N3_13, N3_31_13 = N3_31 + N3_13, N1 = N1_SL + N1_TL, the caches partition cells and edges without overlap, and every spacelike triangle is counted on exactly one slice with the slice counts summing to the number of spacelike triangles.", "quantifier": "every triangulation", "why_tests_cant": "unbounded structures", "anchors": ["include/Foliated_triangulation.hpp", "include/Geometry.hpp:Geometry", "include/Manifold.hpp:Manifold"]}
{"id": "C37", "title": "Repair operations are sound and idempotent", "statement": "fix_vertices and fix_cells leave the topology untouched and establish label correctness in one pass (every vertex carries the time value implied by its radius, every non-acausal finite cell carries its type). A second pass changes nothing. fix_vertices returns true exactly when it changed some label. fix_cells returns true exactly when some finite cell had a wrong label or is acausal, so on an acausal cell it keeps returning true without changing anything.", "quantifier": "every triangulation and labelling", "why_tests_cant": "all labellings", "anchors": ["include/Foliated_triangulation.hpp:fix_vertices", "include/Foliated_triangulation.hpp:fix_cells"]}
{"id": "C38", "title": "Time-value repair terminates and makes progress", "statement": "Each time-value repair pass either reports no invalid cells and changes nothing, or removes at least one vertex, each removed vertex being an extreme-time vertex of an acausal cell; hence iteration terminates on every input.", "quantifier": "every triangulation", "why_tests_cant": "termination for all inputs", "anchors": ["include/Foliated_triangulation.hpp:fix_timevalues", "include/Foliated_triangulation.hpp:find_bad_vertex", "include/Foliated_triangulation.hpp:make_triangulation"]}
{"id": "C39", "title": "Construction yields a foliated triangulation", "statement": "make_triangulation returns a triangulation in which every finite tetrahedron spans exactly two adjacent slices.", "quantifier": "every seed, size and layer count", "why_tests_cant": "bounded repair loop vs. unbounded inputs", "anchors": ["include/Foliated_triangulation.hpp:make_triangulation"]}
{"id": "C40", "title": "Generated layers carry their layer's time value", "statement": "For every positive radius and spacing, a point at the radius generated for slice t is assigned time value t, and any point closer than half a spacing to that radius is too; expected radius and time value are mutually inverse.", "quantifier": "every radius, spacing and slice", "why_tests_cant": "continuous domain", "anchors": ["include/Foliated_triangulation.hpp:expected_timevalue", "include/Foliated_triangulation.hpp:expected_radius"]}
{"id": "C41", "title": "Time bounds are attained bounds", "statement": "min_time and max_time are attained by some vertex and bound all vertices; construction of a foliated triangulation from an empty vertex set is rejected.", "quantifier": "every triangulation", "why_tests_cant": "all vertex sets", "anchors": ["include/Foliated_triangulation.hpp:find_max_timevalue", "include/Foliated_triangulation.hpp:find_min_timevalue"]}
{"id": "C42", "title": "Lock ownership follows the triangulation", "statement": "Through every sequence of copy, move, assignment, swap and detach operations, each live state is bound to its own lock grid (or none after detach), no two live states share a grid, and no state refers to a destroyed grid.", "quantifier": "every operation sequence", "why_tests_cant": "unbounded sequences", "anchors": ["include/Foliated_triangulation.hpp:Delaunay_state", "docs/multithreading.md"]}
{"id": "C43", "title": "Copies and swaps are value semantics", "statement": "Copying a manifold yields an equal independent value, swapping exchanges all observable state, moving transfers it, and updating recomputes exactly the same derived data for a consistent manifold.", "quantifier": "every manifold", "why_tests_cant": "all states", "anchors": ["include/Manifold.hpp:Manifold", "include/Foliated_triangulation.hpp:FoliatedTriangulation"]}
{"id": "C44", "title": "Action is finite on the validated domain", "statement": "For every accepted parameter set (finite, alpha > 1/2) and all counts, every square root and arccosine evaluated by the bulk action has an argument inside its real domain and no denominator vanishes, so the action is a real number.", "quantifier": "every alpha > 1/2 and all couplings and counts", "why_tests_cant": "continuous domain", "anchors": ["include/S3Action.hpp:s3_bulk_action", "include/S3Action.hpp:make_physical_parameters"]}
{"id": "C45", "title": "Action formulas", "statement": "The evaluated straight-line programs for alpha=-1, alpha=1 and general alpha compute exactly the documented closed forms in exact arithmetic.", "quantifier": "all counts and couplings", "why_tests_cant": "real-valued identity", "anchors": ["include/S3Action.hpp:s3_bulk_action", "include/S3Action.hpp:s3_bulk_action_alpha_one", "include/S3Action.hpp:s3_bulk_action_alpha_minus_one_imaginary_coefficient"]}
{"id": "C46", "title": "Parameter validation", "statement": "Physical parameters exist only if alpha, k and lambda are finite and alpha > 1/2; non-finite values are reported before domain errors.", "quantifier": "every triple of extended floating values", "why_tests_cant": "all floats", "anchors": ["include/S3Action.hpp:make_physical_parameters", "include/Runtime_config.hpp:make_simulation"]}
{"id": "C47", "title": "Runtime configuration is validated completely", "statement": "A triangulation configuration is accepted iff exactly one topology is selected and it is spherical, dimension is 3, counts are within 32-bit range and at least 2, radius and spacing are finite and positive, the generated population is feasible and the thread count is allowed; every accepted configuration satisfies all downstream preconditions.", "quantifier": "every combination of option values", "why_tests_cant": "unbounded product domain", "anchors": ["include/Runtime_config.hpp:make_triangulation", "include/Runtime_config.hpp:make_simulation"]}
{"id": "C48", "title": "Population arithmetic never overflows", "statement": "For every accepted request the per-slice population and every layer's vertex count are computed without overflow, each layer gets at least two points, and requests whose counts would not fit are rejected rather than wrapped.", "quantifier": "every simplex count, slice count, radius and spacing", "why_tests_cant": "overflow boundary over a huge domain", "anchors": ["include/Utilities.hpp:expected_points_per_timeslice", "include/Utilities.hpp:generated_population_bounds", "include/Utilities.hpp:generated_input_vertex_count"]}
{"id": "C49", "title": "Population estimate is monotone", "statement": "Requesting more simplices never yields fewer points per slice.", "quantifier": "every pair of requests", "why_tests_cant": "all pairs", "anchors": ["include/Utilities.hpp:expected_points_per_timeslice", "docs/cgal-integration.md"]}
{"id": "C50", "title": "Delaunay upper bound", "statement": "The reported worst-case tetrahedron bound equals (n^2-3n-2)/2 for n>=4 and 0 below, and is reported as unrepresentable exactly when it exceeds 64 bits.", "quantifier": "every 64-bit vertex count", "why_tests_cant": "2^64 inputs", "anchors": ["include/Utilities.hpp:delaunay_tetrahedron_upper_bound"]}
{"id": "C51", "title": "Random streams are position independent", "statement": "Splitting a root generator into a named stream depends only on root seed and stream id, not on how many draws were taken from the root or other streams; equal seed, stream and starting manifold replay identical transition sequences and counters.", "quantifier": "every seed, stream and draw history", "why_tests_cant": "all histories", "anchors": ["include/Random.hpp:Random::split", "docs/reproducibility.md"]}
{"id": "C52", "title": "Causal trailer round-trips", "statement": "Reading the causal-data trailer written for any triangulation restores every vertex time value and cell type, including negative values; malformed, duplicated, missing or out-of-range records and count mismatches are rejected.", "quantifier": "every labelling and every corrupted trailer", "why_tests_cant": "all labellings and texts", "anchors": ["include/Utilities.hpp:write_causal_info", "include/Utilities.hpp:read_causal_info"]}
{"id": "C53", "title": "Metadata manifest round-trips", "statement": "Parsing the manifest written for any valid metadata returns the same values for all fields; manifests with a missing required field, duplicated field, empty value, unknown header or inconsistent optional groups are rejected.", "quantifier": "every metadata value and text", "why_tests_cant": "all texts", "anchors": ["include/Utilities.hpp:metadata_text", "include/Utilities.hpp:read_persistence_metadata"]}
{"id": "C54", "title": "Payload corruption is detected", "statement": "A manifested payload with any single byte changed, or with bytes appended or removed, is refused on read.", "quantifier": "every payload, position and byte value", "why_tests_cant": "all payloads", "anchors": ["include/Utilities.hpp:payload_integrity", "include/Utilities.hpp:validate_payload_integrity"]}
{"id": "C55", "title": "Publishing is crash-atomic", "statement": "At every crash point of writing an artifact, a later read of the destination either returns the complete old artifact, the complete new artifact, or fails; it never returns a mixture of new payload with old provenance or a truncated payload. Without a manifest a reader always sees the complete old or complete new payload.", "quantifier": "every crash point and prior file-system content", "why_tests_cant": "crash points cannot be exhausted by tests", "anchors": ["include/Utilities.hpp:write_file", "include/Utilities.hpp:write_payload", "docs/reproducibility.md#persistence-contract"]}
{"id": "C56", "title": "A failed write leaves no debris and no damage", "statement": "If writing an artifact fails with an exception at any step before publication, temporary files are removed, and the previously published payload and manifest are untouched and still readable.", "quantifier": "every failing step", "why_tests_cant": "all failure points", "anchors": ["include/Utilities.hpp:write_file", "include/Utilities.hpp:write_payload"]}
{"id": "C57", "title": "File operations do not nest or interleave", "statement": "At no time are two write operations active in one process; a reentrant write is refused and the guard is released on every exit path.", "quantifier": "every schedule of write calls and exceptions", "why_tests_cant": "all schedules", "anchors": ["include/Utilities.hpp:WriteFileOperation"]}
{"id": "C58", "title": "Persisted fingerprints do not depend on storage order", "statement": "Placement and topology fingerprints of a triangulation are invariant under any reordering of its vertices and cells and under any permutation of vertices within cells. Computing them fails only when two vertices have the same coordinates and the search exceeds its work budget, which it cannot do when the labels leave few vertices and cells to tell apart (in particular with at most seven of them).", "quantifier": "every triangulation and permutation", "why_tests_cant": "n! permutations", "anchors": ["include/Utilities.hpp:canonical_topology_fingerprint", "include/Utilities.hpp:canonical_placement_fingerprint", "include/Utilities.hpp:canonical_bipartite_incidence_records"]}
{"id": "C59", "title": "Checkpoint file names do not collide within a run", "statement": "Two artifacts written by the library with the same file name have the same kind (checkpoint or not), seed, completed pass, second of creation, topology, dimension, simplex count and last time, and radii equal to a millionth; so distinct passes of one run, distinct seeds and distinct state counts never share a name.", "quantifier": "every pair of artifacts: states, seeds, passes and times", "why_tests_cant": "all pairs", "anchors": ["include/Utilities.hpp:make_filename"]}
{"id": "C60", "title": "Write then read is the identity", "statement": "Reading an artifact just written by the library returns a triangulation with identical labels, counts and fingerprints, with or without a manifest, whatever files existed before. A write with a manifest whose counts do not fit the manifest's 32-bit integers is refused.", "quantifier": "every triangulation, metadata and prior file-system content", "why_tests_cant": "all states", "anchors": ["include/Utilities.hpp:write_file", "include/Utilities.hpp:read_file"]}
{"id": "C61", "title": "A Metropolis transition never throws on a manifold in order", "statement": "attempt_transition on a manifold that is in order (structurally correct, correct labels, caches of its triangulation), whose triangle centroids are not already vertices and whose counts are not at the edge of the 32-bit range, with couplings the program accepts and a trial value in [0,1], never throws, whatever move code and random draws; the manifold afterwards is again in order, keeps its foliation parameters, stays causal, and keeps boundary, Euler characteristic and slices.", "quantifier": "every manifold in order, move code, trial value, couplings, generator state and lawful rounding", "why_tests_cant": "needs every manifold and every draw", "anchors": ["include/Metropolis.hpp:attempt_transition", "include/Metropolis.hpp:resolve_transition", "include/Ergodic_moves_3.hpp:make_manifold", "include/Ergodic_moves_3.hpp:check_move"]}
{"id": "C62", "title": "A whole Metropolis run succeeds and returns a manifold in order", "statement": "A Metropolis run with valid cadence and outputs that do not throw, every visited manifold having fresh centroids and counts inside the 32-bit range, does not throw, performs in each pass as many transitions as the pass's first manifold has tetrahedra, and returns the last manifold of that trajectory, which is in order with the initial foliation parameters, boundary, Euler characteristic and slices.", "quantifier": "every initial manifold in order, seed, cadence, couplings and output behaviour", "why_tests_cant": "unbounded run lengths and all random histories", "anchors": ["include/Metropolis.hpp:operator()", "include/Move_run.hpp:execute_move_run", "include/Ergodic_moves_3.hpp"]}
{"id": "C63", "title": "Queued batches and unconditional runs succeed and return a manifold in order", "statement": "A MoveCommand batch of declared moves, and a whole MoveAlways run whose outputs do not throw, on a manifold in order with every visited manifold having fresh centroids, run to the end without exception, try the moves in queue order, empty the queue, and leave a manifold in order with the same foliation parameters, boundary, Euler characteristic and slices.", "quantifier": "every manifold in order, queue, generator and cadence", "why_tests_cant": "unbounded queues and runs", "anchors": ["include/Move_command.hpp:execute", "include/Move_always.hpp:operator()", "include/Ergodic_moves_3.hpp"]}
{"id": "C64", "title": "Every artifact a run leaves is due, complete and truthfully labelled", "statement": "Whatever the file system does, every artifact the cdt program finishes writing is one that was due, in order (a checkpoint after each multiple of the interval, then the final triangulation): its name carries its state, seed and pass, its payload is the state after that many passes, and its manifest states the run's seed and streams, couplings, cadence, requested and actual sizes, label range, completed passes, number of transitions and the fingerprint of their history. When cdt reports success nothing due is missing and the final state is valid.", "quantifier": "every accepted command line, initial universe, transition engine, random history, clock and file-system behaviour", "why_tests_cant": "unbounded runs and all failure points", "anchors": ["src/cdt.cpp:main", "include/Metropolis.hpp:make_reproducibility_metadata", "include/Utilities.hpp:make_reproducibility_metadata", "include/Utilities.hpp:write_file"]}
{"id": "C65", "title": "A run never overwrites its own artifacts and touches only its own names", "statement": "At the end of a cdt run every artifact it finished writing is still stored as written and reads back as the state after its pass; no file except artifact names with the run's seed, their manifests and temporaries has changed.", "quantifier": "every run, clock (even a constant one), and file-system behaviour", "why_tests_cant": "needs every pair of artifacts and every failure point", "anchors": ["src/cdt.cpp:main", "include/Utilities.hpp:make_filename", "include/Utilities.hpp:write_file", "include/Utilities.hpp:read_file"]}
{"id": "C66", "title": "Exit status and effective configuration of cdt", "statement": "cdt exits with 0 or 1. Help and version exit with 0; an unparsable command line, refused configuration or failed construction exit with 1; in all these cases, and with --no-output, nothing is written. Otherwise 0 means the options were valid, are exactly the values the run used (the seed being the given one or the drawn entropy), and the whole run was made. If nothing goes wrong the program's own checks do not make it fail.", "quantifier": "every command line, environment and file-system behaviour", "why_tests_cant": "all option combinations and failure points", "anchors": ["src/cdt.cpp:main", "include/Runtime_config.hpp:make_triangulation", "include/Runtime_config.hpp:make_simulation"]}
{"id": "C67", "title": "A run can be replayed from its recorded seed", "statement": "Running cdt again with the same options and the recorded seed, from the same initial universe, produces artifacts with byte-identical payloads and manifests and names equal up to the time of writing, as far as both executions get; two successful executions leave equally many.", "quantifier": "every run, entropy, clocks and file-system behaviour of both executions", "why_tests_cant": "relates two unbounded executions", "anchors": ["src/cdt.cpp:main", "include/Random.hpp:Random", "include/Metropolis.hpp:operator()"]}
{"id": "C68", "title": "initialize writes exactly the universe cdt would start from", "statement": "initialize writes only with --output; on success it leaves exactly one artifact, with truthful initial-triangulation provenance and without run fields, and on failure it has finished none; it touches only names with its seed. With the same options its universe is the one cdt starts from.", "quantifier": "every command line, environment and file-system behaviour", "why_tests_cant": "all option combinations and failure points", "anchors": ["src/initialize.cpp:main", "src/cdt.cpp:main"]}
{"id": "C69", "title": "The viewer writes only after complete validation and reports success truthfully", "statement": "cdt-viewer changes files only when --output is given and only after the manifest, the digest, the versions, the stored fixture and its topology and time range have all been checked against each other (a replacement fixture included). Exit status 0 with --output means (unless the application was told to quit from outside) the snapshot of that fixture's scene was taken, boundaries were outlined if requested, and the output file holds a readable image of the declared size and foreground. A watchdog timeout exits 1 and writes nothing. (Limit, proved: because saveSnapshot does not report failure, a suitable image left by an earlier run can be accepted.)", "quantifier": "every command line, file system, fixture, manifest, behaviour of Qt, and order of events", "why_tests_cant": "all manifests, fixtures and event orders; success must imply facts about file contents", "anchors": ["src/cdt-viewer.cpp:main", "src/cdt-viewer.cpp:run_viewer", "src/cdt-viewer.cpp:validate_fixture", "src/cdt-viewer.cpp:validate_image"]}
{"id": "C70", "title": "The manifest parser accepts exactly the schema", "statement": "An accepted render manifest means what its JSON says field by field, every field has the right kind and lies in its range, integers are exact, and the frame buffer is practical; every document that satisfies the schema is accepted with that meaning; anything else is refused with invalid_argument (or the error of resolving the fixture path). Field of view is below pi and the demanded foreground is reachable.", "quantifier": "every JSON document, floating-point format and path resolution", "why_tests_cant": "all documents", "anchors": ["src/cdt-viewer.cpp:parse_manifest", "src/cdt-viewer.cpp:require_integer", "src/cdt-viewer.cpp:require_color"]}
{"id": "C71", "title": "The drawn scene depends only on the complex", "statement": "Each facet is drawn once as a triangle of its own corners, counterclockwise seen from outside, in a palette colour that is a function of the palette and of its corners' coordinates and labels in no order; with scope convex_hull exactly the hull vertices are drawn, with all every vertex. Two stored forms of one complex give the same scene up to drawing order. With a nonempty palette scene construction never fails.", "quantifier": "every triangulation, storage order and render configuration", "why_tests_cant": "all triangulations and storage orders", "anchors": ["src/cdt-viewer.cpp:make_scene", "src/cdt-viewer.cpp:facet_hash", "src/cdt-viewer.cpp:orient_outward", "src/cdt-viewer.cpp:convex_hull_vertices"]}
{"id": "C72", "title": "Outlining paints exactly the visible boundaries and mark rims", "statement": "Outlining keeps the image size and paints in the edge colour exactly the non-transparent positions separated from a right or lower neighbour by more than the threshold (with wide lines also from a left or upper one) and the rims of vertex marks, judged on the original snapshot; all other pixels, transparent ones included, keep their value. With transparent background and opaque edge colour the foreground is unchanged; the foreground count is the number of foreground positions.", "quantifier": "every image, threshold, tolerance, colour and line width", "why_tests_cant": "all images", "anchors": ["src/cdt-viewer.cpp:outline_face_boundaries", "src/cdt-viewer.cpp:foreground_pixels"]}
{"id": "C73", "title": "Checkpoints of an unconditional run are what they claim", "statement": "Whatever the file system does, every checkpoint a MoveAlways run has finished writing was due, in order; its name carries the state's size, the seed and the pass; its payload is the state after that many passes, each of which tried as many moves as it found simplices; its manifest records that state, seed and pass and passes the library's own checks. They are all still there when the run ends, files not named for this seed are untouched, and when the run returns none is missing. write_file(universe, seed) likewise leaves one truthful artifact or throws.", "quantifier": "every engine, starting universe, seed, stream, cadence, file-system fault and clock", "why_tests_cant": "all fault schedules and run lengths", "anchors": ["include/Move_always.hpp:operator()", "include/Utilities.hpp:write_file", "include/Utilities.hpp:make_reproducibility_metadata", "include/Move_run.hpp:execute_move_run"]}
{"id": "C74", "title": "Unconditional runs replay; which stream their manifests name", "statement": "Two MoveAlways runs from the same universe with the same seed, stream and cadence write checkpoints with identical contents and names up to the time of writing, as far as both get, and return the same universe if both return. Their manifests always name stream 1 as the transition stream, whatever stream the run owns; one constructed from a seed alone owns stream 0.", "quantifier": "every engine, universe, seed, stream, cadence, fault schedule and clock", "why_tests_cant": "all histories and fault schedules", "anchors": ["include/Move_always.hpp:MoveStrategy", "include/Utilities.hpp:Reproducibility_metadata", "include/Random.hpp:Random"]}
{"id": "C75", "title": "bistellar_flip exchanges one diagonal and nothing else", "statement": "For every valid triangulation, bistellar_flip(triangulation, edge, top, bottom) returns a triangulation exactly when the edge lies in exactly four tetrahedra, all finite, top and bottom are different vertices of the ring around it, and the two ring neighbours of bottom are not joined by an edge already. The result replaces the edge by the edge between those neighbours: four tetrahedra are replaced by four, the complex stays valid, vertices, times, labels at infinity and the numbers of finite simplices of every dimension are unchanged, and every finite tetrahedron carries its label. The choice of top does not matter, the ring vertex opposite bottom gives the same result, and the flip of the new edge about the same vertices restores the triangulation. Causality is not checked: at a (4,4) site the flip about the vertex above or below keeps it, the flip about the other two corners always succeeds and always destroys it. find_pivot_edge returns the first edge with such a ring and nothing exactly when there is none; get_vertices lists every vertex of the given cells once.", "quantifier": "every valid triangulation, edge, pair of vertices, container of edges and of cells", "why_tests_cant": "all triangulations and all choices of edge and vertices", "anchors": ["include/Ergodic_moves_3.hpp:detail::bistellar_flip", "include/Ergodic_moves_3.hpp:detail::prepare_bistellar_flip", "include/Ergodic_moves_3.hpp:detail::execute", "include/Ergodic_moves_3.hpp:detail::find_pivot_edge", "include/Ergodic_moves_3.hpp:detail::get_vertices"]}
{"id": "C76", "title": "Time values survive floating-point rounding", "statement": "With binary64 rounding, a point generated on the sphere of layer i of a foliated ball, up to a relative error e of its squared radius, gets time value i+1 back from its coordinates (expected_timevalue), provided (initial_radius/spacing + i + 1)(2e + 2^-49) <= 1/4; so a generated ball passes check_vertices before any repair. Where adding the spacing is lost to rounding, points of every layer get time value 1 although ball and configuration are accepted. does_vertex_radius_match_timevalue accepts every point within 0.9% of its slice's squared radius and none beyond 1.1%; if the slice's radius is at most 39 spacings its answer agrees with expected_timevalue, at 250 spacings or more it accepts points of the next slice too.", "quantifier": "every binary64-like rounding, library with sqrt and pow correct to the last places, radius and spacing between 2^-400 and 2^400, layer below 2^31, and point with double coordinates", "why_tests_cant": "all doubles and all layers", "anchors": ["include/Foliated_triangulation.hpp:foliated_triangulations::expected_timevalue", "include/Foliated_triangulation.hpp:foliated_triangulations::check_vertices", "include/Foliated_triangulation.hpp:squared_radius", "include/Foliated_triangulation.hpp:FoliatedTriangulation::does_vertex_radius_match_timevalue", "include/Foliated_triangulation.hpp:make_foliated_ball"]}
{"id": "C77", "title": "The cheap correctness test misses nothing", "statement": "On every manifold a program can hold, whatever constructions, copies, moves, swaps, updates and destructions came before, is_correct() and is_correct_with_diagnostics() give the same answer; on one with vertices both say exactly that the complex is a closed pseudo-manifold whose finite tetrahedra each span two adjacent slices, and a default-constructed manifold passes. On data of any origin the diagnostic test implies that the containers hold exactly the simplices of their kind, provided no container repeats a handle or holds one at infinity; the cheap test alone does not. When it passes, the recorded time bounds are the least and greatest time label of the recorded vertices.", "quantifier": "every history of operations on manifolds, every triangulation and iteration order", "why_tests_cant": "all histories", "anchors": ["include/Foliated_triangulation.hpp:FoliatedTriangulation::is_correct", "include/Foliated_triangulation.hpp:FoliatedTriangulation::is_correct_with_diagnostics", "include/Foliated_triangulation.hpp:FoliatedTriangulation::has_consistent_derived_state"]}
{"id": "C78", "title": "Construction from explicit points", "statement": "make_causal_vertices pairs points and time values in order; it throws length_error exactly when there are not equally many, and otherwise out_of_range exactly when a time value exceeds INT_MAX. FoliatedTriangulation(causal_vertices, radius, spacing) throws invalid_argument exactly when there is no point or a point occurs twice; otherwise its vertices are exactly the given points, with the time values of their radii. The time values supplied with the points have no influence on the result.", "quantifier": "every list of points and time values whose triangulation has dimension three, every triangulator that keeps the points", "why_tests_cant": "all point sets", "anchors": ["include/Foliated_triangulation.hpp:make_causal_vertices", "include/Foliated_triangulation.hpp:FoliatedTriangulation::FoliatedTriangulation", "include/Foliated_triangulation.hpp:detail::Delaunay_state"]}
{"id": "C79", "title": "Accuracy of the computed action and acceptance probability", "statement": "In 256-bit round-to-nearest arithmetic the evaluated bulk action differs from the documented formula by at most 2^-243 C A N, and the computed acceptance probability from the exact Metropolis-Hastings probability by at most 2^-239 C A N, where C bounds the couplings, A the root of alpha and N the counts (all at least 1); no accepted alpha, however close to 1/2 or large, is ill-conditioned. The accept/reject decision is therefore the exact one unless the trial value lies within that distance of the exact probability. The alpha = 1 and alpha = -1 programs are within 2^-246 C N of their documented formulas.", "quantifier": "every accepted parameter triple, every pair of geometries with 32-bit counts and positive site counts, every trial value, every 256-bit rounding", "why_tests_cant": "a bound over a continuum of parameters and all counts; tests compare a few values to a loose tolerance", "anchors": ["include/S3Action.hpp:s3_bulk_action", "include/S3Action.hpp:s3_bulk_action_alpha_one", "include/S3Action.hpp:s3_bulk_action_alpha_minus_one_imaginary_coefficient", "include/Metropolis.hpp:acceptance_probability", "include/Mpfr_value.hpp", "include/Settings.hpp:PRECISION"]}
{"id": "C80", "title": "The alpha = 1 and alpha = -1 shortcuts agree with the general action", "statement": "For all couplings and counts the alpha = 1 action program and the general program at alpha = 1 agree to within 0.0005 per unit of coupling and tetrahedron (half a unit of the last printed digit of the coefficients; the timelike-edge term agrees exactly), and the alpha = -1 program's coefficients agree to the same tolerance with the coefficient of i in the general formula continued to alpha = -1.", "quantifier": "every pair of couplings and every triple of counts", "why_tests_cant": "the agreement of seven printed decimals with transcendental expressions, for all inputs", "anchors": ["include/S3Action.hpp:s3_bulk_action", "include/S3Action.hpp:s3_bulk_action_alpha_one", "include/S3Action.hpp:s3_bulk_action_alpha_minus_one_imaginary_coefficient"]}
{"id": "C81", "title": "From the command line to the files: every artifact of a cdt run is a causal triangulation", "statement": "If cdt is launched from a universe whose own checks pass, then whatever transitions are drawn, every artifact it completes (checkpoints and final state, also when the run later fails) is the state after its pass, is in order (closed, all tetrahedra causal and labelled by type) with the boundary, Euler characteristic, slices, radius and spacing of the initial universe, and reading it back at the end of the run gives a triangulation each of whose tetrahedra has corners on two consecutive slices and the label of that distribution. If no file operation fails and the states can be stored, the exit status is 0 and all artifacts due are written. A universe built from the command line with at most 53 points is such a universe, and any built one is iff its tetrahedra are causal; cdt itself does not check this, and from an acausal universe exits with status 0 leaving acausal artifacts.", "quantifier": "all option values, seeds, generators, couplings, roundings, lawful CGAL behaviours, disks and faults, initial universes, numbers of passes and transitions", "why_tests_cant": "A test runs one seed for a few passes; the claim composes construction, every transition of every run, the schedule, the writer and the reader for all seeds and failure points.", "anchors": ["src/cdt.cpp:main", "include/Manifold.hpp:Manifold", "include/Foliated_triangulation.hpp:make_triangulation", "include/Metropolis.hpp:operator()", "include/Utilities.hpp:write_file", "include/Utilities.hpp:read_file"]}
{"id": "C82", "title": "The lock grid of a parallel triangulation spans every point", "statement": "The box of the spatial lock grid, computed in double arithmetic for a set of causal vertices or for the vertices of an adopted triangulation, contains every point whatever its finite coordinates, and every position between the points, such as the centroids the moves insert later. Below 2^53 no such position lies on a face; up to 2^40 each keeps a distance from each face of at least 1/2 and of at least a 128th of the largest extent. Without points the box is the cube from -100 to 100. Beyond 2^53 the padding can be lost to rounding and the box of a single point has no width.", "quantifier": "all lists of points with finite double coordinates, all positions between them, all lawful rounding functions", "why_tests_cant": "Tests use a few small point sets; absorption of the padding, overflow of an extent and points on a face occur only for particular magnitudes.", "anchors": ["include/Foliated_triangulation.hpp:pad_locking_box", "include/Foliated_triangulation.hpp:default_locking_box", "include/Foliated_triangulation.hpp:locking_box"]}
{"id": "C83", "title": "The program's own transition probabilities satisfy detailed balance up to rounding", "statement": "The probability that one sampled Metropolis transition takes a manifold T to a neighbour T' - with the real move functions, the post-move check, the 256-bit acceptance probability and a trial value taken from an even grid of n values in [0,1) - is 1/(5 C_m(T)) times the fraction of the grid at most the computed acceptance probability; it is zero for manifolds no move makes from T. Whenever the reverse move exists, the equilibrium flows e^{-S(T)} P(T->T') and e^{-S(T')} P(T'->T) differ by at most (2^-239 times the scale of couplings and counts, plus 1/n) of the proposed flows.", "quantifier": "every manifold in order, every successful move, every generator state and counter state, every accepted coupling, every grid size", "why_tests_cant": "a probability statement about all states and all draws, with a bound far below what sampling could resolve", "anchors": ["include/Metropolis.hpp:resolve_transition", "include/Metropolis.hpp:sample_transition", "include/Utilities.hpp:generate_probability", "docs/metropolis-hastings.md"]}
{"id": "C84", "title": "No simulation changes the topology of the universe", "statement": "Every successful move, through any public function, exchanges simplices as one or two bistellar (Pachner) moves of the three-dimensional complex that do not touch its boundary at infinity: (2,3) and (3,2) are one such move, (2,6), (6,2) and (4,4) two. Hence after any history of moves, any Metropolis run, and in every artifact the program writes, the universe is connected with the initial one by finitely many bistellar moves of the interior, which is piecewise linear homeomorphism; the moves back exist as well, and Euler characteristic, closedness and everything at infinity are kept.", "quantifier": "all sound triangulations, all move types and random choices, all finite histories of moves, all runs of the program", "why_tests_cant": "Tests compare counts and Euler characteristics of a few runs; equality of numbers does not show that the topology is the same, and histories are unbounded.", "anchors": ["include/Ergodic_moves_3.hpp:do_23_move", "include/Ergodic_moves_3.hpp:do_32_move", "include/Ergodic_moves_3.hpp:do_26_move", "include/Ergodic_moves_3.hpp:do_62_move", "include/Ergodic_moves_3.hpp:do_44_move", "include/Metropolis.hpp:operator()"]}
{"id": "C85", "title": "Every spatial slice keeps its topology; the end slices never change", "statement": "(2,3) and (3,2) moves change no spatial slice. A (4,4) move flips one diagonal, an accepted (2,6) move subdivides one triangle, and a (6,2) move removes one vertex of degree three of exactly one slice that has vertices above and below it; all other slices stay. Hence after any history of accepted moves each slice is connected with the initial one by two-dimensional bistellar moves, has the same Euler characteristic and, if it was a closed surface, still is one; and the first and last slices are literally unchanged.", "quantifier": "all sound triangulations, all histories of accepted moves, all time values", "why_tests_cant": "The slices are never checked by the library; their topology is a statement about all simplices of a slice after unboundedly many moves.", "anchors": ["include/Ergodic_moves_3.hpp:do_44_move", "include/Ergodic_moves_3.hpp:do_26_move", "include/Ergodic_moves_3.hpp:do_62_move", "include/Ergodic_moves_3.hpp:check_move"]}
{"id": "C86", "title": "A (4,4) candidate is always accepted", "statement": "A (4,4) move changes none of the counts the action or its own proposal probability depend on, so the acceptance probability computed for it is exactly 1, for all couplings (even infinite or NaN) and with all roundings. Hence a (4,4) attempt never ends as a Metropolis rejection: whenever the proposal returns a triangulation, that triangulation becomes the current state for every trial value in [0, 1]. After every history of calls on a strategy object the number of (4,4) rejections equals the number of (4,4) failures, also when calls threw, and the number of (4,4) acceptances equals the number of (4,4) successes if none threw.", "quantifier": "all states, couplings, trial values, generators, lawful roundings and histories of calls", "why_tests_cant": "The claim quantifies over all couplings and floating-point roundings, all trial values including exactly 1, and all histories of calls including failing ones.", "anchors": ["include/Metropolis.hpp:acceptance_probability", "include/Metropolis.hpp:resolve_transition", "include/Metropolis.hpp:operator()", "include/Ergodic_moves_3.hpp:check_move"]}
{"id": "C87", "title": "Artifacts of unconditional runs and of initialize are causal triangulations", "statement": "From a universe in order, every checkpoint a MoveAlways_3 run has written, whatever the file system did, is the truth about the state after its pass, and that state is a closed complex of correctly labelled causal tetrahedra with the boundary, Euler characteristic, slices, radius, spacing and topology of the initial universe; a run that returns has written all checkpoints due and returns such a state. Read back at the end of the run each of them is accepted by the library and is causal, on the initial slices. If the states can be stored and no file operation fails, the run returns and no checkpoint is missing. The same holds for the artifact of initialize --output: it reads back as a causal triangulation if the universe was built in order, and the program exits with status 0 if nothing fails.", "quantifier": "all universes in order, seeds, numbers of passes, cadences, behaviours of the file system (for the success part: all fault-free ones) and command lines of initialize", "why_tests_cant": "The tests run MoveAlways on a few seeds and never read a checkpoint back; the claim ranges over all histories of moves and all file-system failures.", "anchors": ["include/Move_always.hpp:operator()", "include/Move_run.hpp:execute_move_run", "include/Utilities.hpp:write_file", "include/Utilities.hpp:read_file", "src/initialize.cpp:main"]}
{"id": "C88", "title": "cdt-viewer draws exactly what the programs wrote", "statement": "Take any artifact written by cdt, initialize or MoveAlways_3, on any file system, and copy it under any name, with or without its manifest. Whatever cdt-viewer validates there is the triangulation the program had when it wrote the artifact, and a headless viewer run that succeeds took a snapshot of the scene of that triangulation: the state after the pass of the checkpoint, or the constructed universe. Conversely a render manifest repeating the counts, the time range and dimension of the artifact's own manifest, the digest of the payload and the host's versions is accepted if CGAL calls the triangulation valid and the frame buffer is practical; everything the viewer's specification calls validated is accepted; and if the snapshot then is the image asked for, the viewer exits with 0.", "quantifier": "all options, configurations, file systems and fault schedules of the writing programs, all artifacts they log, all file systems and events of the viewer", "why_tests_cant": "It relates two programs through files, for every run, fault schedule, artifact and place to which it is copied.", "anchors": ["src/cdt.cpp:main", "src/initialize.cpp:main", "include/Move_always.hpp:operator()", "src/cdt-viewer.cpp:main", "include/Utilities.hpp:read_file"]}
{"id": "C89", "title": "Equal fingerprints mean the same labelled triangulation, unless FNV-1a collides", "statement": "The placement and topology fingerprints are FNV-1a digests of texts that list every vertex (point, label) and every cell (points or incidences, label), and these texts determine the labelled points and the labelled triangulation up to storage order, also when several vertices have the same coordinates. So two triangulations with the same topology fingerprint are the same labelled triangulation, or two different texts with the same digest have been found. Consequently, without trusting CGAL's stream operators, whatever a read returns after a successful write is the triangulation that was written; at every crash point a read gives the old artifact or the new triangulation; and one manifest describes one triangulation only.", "quantifier": "all pairs of stored triangulations of any size whose points are printed without ':' ';' and byte 255, all storage orders, all file contents, fault patterns and crash points", "why_tests_cant": "Injectivity of an encoding up to isomorphism concerns all pairs of triangulations; tests compare a few literal pairs, and the coincident-vertex branch is a canonical-labelling search.", "anchors": ["include/Utilities.hpp: point_key, point_cell_key, fingerprint_records, placement_fingerprint, topology_fingerprint, incidence_topology_records", "include/Utilities.hpp: validate_serialized_payload, validate_persistence_metadata, read_file"]}
{"id": "C90", "title": "A Metropolis_3 object records what it really does", "statement": "A Metropolis_3 object can be made exactly with finite couplings, alpha above 1/2 and a positive cadence. However it was used before (single transitions, initialize, earlier runs that succeeded or threw), every checkpoint a run of it finishes writing was due, in order, is the state after that many passes from the given universe and the object's generator, is named for its state, seed and pass, and its manifest states the seed and stream of the generator the object was given, its couplings and cadence whatever the caller's record said of them, and the transitions of this run alone; all are still there when the run ends and only files named for this seed were touched. When the run returns nothing is missing, and the record the object hands out for the returned manifold is equally true. New objects with equal arguments replay each other's runs byte for byte.", "quantifier": "all couplings, cadences, generators with any seed and stream, caller records, histories of calls, universes, transition engines and file-system behaviours", "why_tests_cant": "Ranges over all histories of calls on the object and all fault patterns of the file system during a run of any length.", "anchors": ["include/Metropolis.hpp: MoveStrategy, operator(), make_reproducibility_metadata, reproducibility_metadata, attempt_transition, initialize", "include/Utilities.hpp: write_file, update_reproducibility_state, reconcile_payload_metadata"]}
{"id": "C91", "title": "What a run prints is true of the run", "statement": "A Metropolis or move-always run that returns has printed, in this order: the algorithm with the seed and stream it used, a heading for each pass, after each due pass the report on all transitions so far and (when files are written) the announcement of the checkpoint and whatever the checkpoint printed, and at the end the report on the whole run. Every number printed (moves proposed, accepted and rejected, candidate constructions attempted, succeeded and failed, per move type and in total) is the count over the history of transitions that leads from the given manifold to the returned one; for a Metropolis run that history is the one determined by the engine, the initial manifold and the generator's state, pass by pass. A run that ends with an exception, also one from printing itself at any byte, has printed a beginning of such a text, nothing about a pass it did not complete except its heading, and leaves the object's published results alone. The printed report determines these counters: no two different tallies look the same. Output never changes what a run computes, and unless a print throws the run is the same as without output.", "quantifier": "all engines, manifolds, generators, cadences, histories, checkpoint writers and patterns of failing prints (which call, after how many bytes)", "why_tests_cant": "Tests read a few transcripts; that every number in every report is the count over the actual history, at every point where output may fail, ranges over all runs.", "anchors": ["include/Move_run.hpp:execute_move_run", "include/Metropolis.hpp:print_results", "include/Move_always.hpp:print_results", "include/Metropolis.hpp:operator()", "include/Move_always.hpp:operator()"]}
{"id": "C92", "title": "What is printed about a triangulation is true of it", "statement": "For every structurally correct manifold, print(), print_details() and print_volume_per_timeslice() print the number of its vertices, edges, triangles and tetrahedra, of its (3,1), (2,2) and (1,3) tetrahedra, of its timelike and spacelike edges, and one line for every slice from the least to the greatest time label of a vertex with the number of triangles lying in that slice; these add up to the number of all triangles that lie in one slice. print_edges() prints one line for each edge with its kind, and print_delaunay() the four numbers of simplices. The text determines the numbers: two triangulations with the same printed portrait have the same counts, time range and slice areas. After a batch of moves MoveCommand's three reports print, for each kind of move, how many moves of the batch were made, succeeded and failed.", "quantifier": "all triangulations, labels and time ranges; all batches of moves and engines", "why_tests_cant": "Tests print a few manifolds; agreement of the text with the complex, and that different geometries never print alike, ranges over all triangulations.", "anchors": ["include/Manifold.hpp:print", "include/Manifold.hpp:print_details", "include/Foliated_triangulation.hpp:print_volume_per_timeslice", "include/Foliated_triangulation.hpp:print_edges", "include/Utilities.hpp:print_delaunay", "include/Move_command.hpp:print_attempts", "include/Move_command.hpp:print_successful", "include/Move_command.hpp:print_errors"]}
{"id": "C93", "title": "What the programs print is true of what they do", "statement": "When `cdt` exits with 0 (and neither help nor version was asked for) its standard output is exactly the transcript of what it did: the option values it was given and the seed it used, the messages of building its universe from stream 0 of that seed, the portrait of that universe, the run's report computed from the transitions actually made, the announcement of each checkpoint under the name it was written to, a notice if there are fewer timeslices than asked for, the portrait of the final state, and the announcement of the final file; the files named are exactly those due, each the truth about its state. When it exits otherwise the status is 1 and the output is a beginning of such a text: every finished file was announced and is still there as written, nothing else was touched. The same for `initialize`. With the modelled universes the portraits and the size announced by the construction are those of the actual complexes, over the same range of slices before and after. Output changes nothing else: unless a print fails, exit status, files and disk are those of the program without output.", "quantifier": "all option sets, seeds, universes, engines, file system faults and patterns of failing prints (which call, after how many bytes)", "why_tests_cant": "The transcript must agree with the history and the files for every run and at every point where a print, a file operation or a transition may fail; tests see a few complete transcripts.", "anchors": ["src/cdt.cpp:main", "src/initialize.cpp:main", "include/Utilities.hpp:write_payload", "include/Foliated_triangulation.hpp:make_triangulation", "include/Metropolis.hpp:operator()"]}
{"id": "C94", "title": "What cdt-viewer prints is true of what it does", "statement": "Whatever cdt-viewer has printed on standard output, also when a print fails at any byte, is nothing; or a beginning of the announcement of the fixture that the command line and the manifest name; or is about a fixture that passed every check of the manifest, with that fixture's own numbers of vertices, edges, faces and tetrahedra; and once any byte of the announcement of the image is out the output file holds a readable image of exactly the announced size. Exit status 0 means that the output is complete and standard error empty; exit status 1 comes with exactly one message on standard error; the program aborts only when that message cannot be printed. If no print fails, output changes neither exit status nor files. (Limit, proved: an application told to quit from outside before the image is made exits 0 and announces an image it did not make.)", "quantifier": "every command line, file system, fixture, manifest, behaviour of Qt, order of events and pattern of failing prints (which call, after how many bytes)", "why_tests_cant": "tests run one fixture with a working terminal; the claim covers every fixture, every interleaving of watchdog, initialization and quit, and a failure of any print at any byte", "anchors": ["src/cdt-viewer.cpp:main", "src/cdt-viewer.cpp:run_viewer", "include/Utilities.hpp:read_file"]}
{"id": "C95", "title": "What happens to a manifold depends on the manifold, not on how it is stored", "statement": "Two triangulation objects that hold the same manifold (same vertex at infinity, same tetrahedra, same time values of finite vertices, same labels of finite tetrahedra) are interchangeable: with the same state of the random source every do_* and propose_* call returns the same manifold or the same failure and leaves the random source in the same state; every Metropolis transition has the same outcome or exception and leaves the same counters, random state and manifold; two whole runs visit the same manifolds transition by transition. Storage order of the simplices, and whatever the fields of the vertex and the cells at infinity contain, make no difference. (Assumed: the orientation tests of CGAL read the manifold only, and cells at infinity do not carry the label 31.)", "quantifier": "every pair of representations of every manifold in order, every move type, requested code, trial value, counters, random source and state, number of transitions", "why_tests_cant": "a test compares two objects built the same way on one platform; storage order and leftover fields vary with the history of the object and with the library version", "anchors": ["include/Ergodic_moves_3.hpp:canonical_random_element", "include/Ergodic_moves_3.hpp:propose_23_move", "include/Ergodic_moves_3.hpp:do_62_move", "include/Metropolis.hpp:resolve_transition"]}
{"id": "C96", "title": "Sampling keeps the Boltzmann distribution, up to rounding", "statement": "On every finite family of different manifolds that no causal result of a move leaves and in which every move between two members can be undone, the Metropolis transitions of the program - its moves, site numbers, checks, 256-bit arithmetic and discrete trial values - are a Markov chain: they never leave the family, the transition probabilities depend on the member only, are non-negative and add up to one. One transition moves no distribution away from the Boltzmann distribution exp(-S)/Z by more than 2(2^-239 C A N + 1/n) in the sum of absolute differences, where C bounds the couplings, A the root of alpha, N the counts and n is the number of trial values; k transitions by no more than k times that; started in the Boltzmann distribution a run stays within that bound of it. (The condition on undoing moves is needed: C10 shows moves that the program cannot undo.)", "quantifier": "every such family, initial distribution, number of transitions, accepted couplings, lawful 256-bit rounding, grid of trial values", "why_tests_cant": "statistical tests see one run of one ensemble at sampling error; the claim is about the exact transition matrix, for every family and run length, at an error of 2^-239", "anchors": ["include/Metropolis.hpp:resolve_transition", "include/Metropolis.hpp:acceptance_probability", "include/S3Action.hpp", "include/Ergodic_moves_3.hpp"]}
{"id": "C97", "title": "A program holding a Metropolis_3 object only ever holds manifolds in order", "statement": "Take a Metropolis_3 object made with accepted couplings and a universe in order. Whatever sequence of transitions, initialize calls and runs is made on any manifold obtained so far, with any files and faults, whether calls return or throw: every manifold obtained is closed, causal, correctly labelled and has the radius, spacing, boundary, Euler characteristic, slices and topology of the first; a single transition throws exactly for a trial value outside [0,1]; every checkpoint a run completes is the state after its pass and reads back causal with the first universe's slices; if nothing fails on disk and the record fits, the run returns and no checkpoint due is missing. Checkpoint names tell two runs of one object apart only by the second of writing, so a second run in the same second can replace the first run's checkpoint.", "quantifier": "all histories of calls, couplings, generators, universes in order whose visited states are tame, files and faults", "why_tests_cant": "The claim ranges over every history of calls on one object, every generator and every file-system behaviour; a test runs one history.", "anchors": ["include/Metropolis.hpp: attempt_transition, initialize, operator()", "include/Utilities.hpp: make_filename, current_date_time, write_file", "include/Ergodic_moves_3.hpp"]}
{"id": "C98", "title": "Results do not depend on the order in which simplices are stored nor on the implementation of nth_element", "statement": "Take two builds of the program whose CGAL enumerates the simplices of a triangulation in different orders and whose standard libraries implement std::nth_element differently, but whose geometry tests and random draws agree, and give both the same manifold (stored differently). Every do_* and propose_* call returns the same manifold or the same failure and leaves the same random state; every Metropolis transition has the same outcome or exception, counters, random state and manifold; every queued move, whatever its code, ends the same way with the same counters and queue; and whole Metropolis histories, MoveCommand batches and passes of the unconditional strategy visit the same manifolds.", "quantifier": "every pair of enumeration orders and nth_element implementations meeting their contracts, every manifold in order and pair of its representations, every move type, code, trial value, counters, random source and state, number of transitions, list of queued moves, number of passes", "why_tests_cant": "a test runs with one library; the claim compares all conforming ones over all histories", "anchors": ["include/Ergodic_moves_3.hpp:canonical_random_element", "include/Ergodic_moves_3.hpp:canonicalize", "include/Metropolis.hpp:resolve_transition", "include/Move_command.hpp:execute", "include/Move_always.hpp:operator()"]}
{"id": "C99", "title": "No mixture of the library's ways of changing manifolds leads to a manifold out of order", "statement": "Begin with one universe in order and use everything the library offers, in any order and any number of times: do_* and propose_* functions with check_move, MoveCommand objects with any queued codes (executed, reset, executed again, also after an execution that ended at an invalid code), MoveAlways_3 runs, and all calls of any Metropolis_3 objects, whether they return or throw, with any files and faults, on any manifold obtained so far. Every manifold obtained and the manifold held by every MoveCommand object is closed, causal, correctly labelled, and has the radius, spacing, boundary, Euler characteristic, slices and topology of the first. On each of them every move function returns a manifold or a structured failure; executing a command never throws and empties the queue if all its codes are moves.", "quantifier": "all histories of such calls, all generators, codes, files, faults and couplings accepted by the constructors, all universes in order whose visited states are tame (no triangle's centroid is already a vertex, counts away from the 32-bit edge)", "why_tests_cant": "a test follows one mixture of calls; the claim is an invariant of all mixtures of any length", "anchors": ["include/Ergodic_moves_3.hpp:do_23_move", "include/Ergodic_moves_3.hpp:propose_23_move", "include/Ergodic_moves_3.hpp:check_move", "include/Move_command.hpp:MoveCommand", "include/Move_always.hpp:operator()", "include/Metropolis.hpp:operator()", "include/Metropolis.hpp:attempt_transition"]}
{"id": "C100", "title": "The universe stays a connected manifold, and so does every slice", "statement": "No sequence of successful moves, and no mixture of do_*/propose_* calls, MoveCommand executions, MoveAlways_3 runs and Metropolis_3 calls, tears or pinches the universe. If the simplices around every vertex of the triangulation (point at infinity included) form a sphere, they do afterwards; a connected universe stays connected, a 3-sphere stays a 3-sphere; the same holds for the spatial slice at every time, which stays a closed surface in one piece, or a 2-sphere, exactly if it was one.", "quantifier": "all sound triangulations, all histories of moves, commands and runs of any length, all times; and, for the underlying combinatorial facts, all bistellar moves in all dimensions", "why_tests_cant": "is_valid() checks incidences, not that vertex links are spheres or that slices are connected; a test sees finitely many triangulations", "anchors": ["include/Ergodic_moves_3.hpp:do_23_move", "include/Ergodic_moves_3.hpp:do_32_move", "include/Ergodic_moves_3.hpp:do_26_move", "include/Ergodic_moves_3.hpp:do_62_move", "include/Ergodic_moves_3.hpp:do_44_move", "include/Move_command.hpp:MoveCommand", "include/Metropolis.hpp:operator()"]}
{"id": "C101", "title": "The sampler forgets where it started", "statement": "On every finite family of manifolds as in C96 (no causal result of a move leaves it, moves between members can be undone) in which moves lead from every member to every other, the Metropolis chain of the program has exactly one stationary distribution, and from every initial manifold or distribution the distribution after k transitions tends to it as k grows. With 256-bit arithmetic this distribution differs from the Boltzmann distribution by at most a constant times (2^-239 C A N + 1/n), the constant depending on the family and the couplings only, not on the rounding, the random draws or the number n of trial values.", "quantifier": "every such family, accepted couplings, lawful rounding, grid of trial values, initial distribution", "why_tests_cant": "limits of infinitely many transitions from all starting points; a run is finite and starts somewhere", "anchors": ["include/Metropolis.hpp:resolve_transition", "include/Metropolis.hpp:acceptance_probability", "include/Ergodic_moves_3.hpp", "docs/metropolis-hastings.md"]}
{"id": "C102", "title": "Only rounding, one-way moves and leaving disturb the Boltzmann distribution", "statement": "Take any finite set of pairwise different manifolds in order, with no assumption that moves stay inside it or can be undone. The probabilities that one sampled transition leads from a member to each member, stays, or leaves the set are non-negative and add up to one. One transition increases the distance of any distribution on the set from the Boltzmann distribution by at most 2(2^-239 C A N + 1/n) for rounding and the grid of trial values, plus twice the Boltzmann probability of a move inside the set that no move undoes, plus the Boltzmann probability of leaving the set; k transitions by at most k times that. Where every move inside can be undone the second term is zero, where no causal result of a move is outside the third is zero.", "quantifier": "every finite set of manifolds in order, accepted couplings, lawful 256-bit rounding, grid of trial values, distribution, number of transitions", "why_tests_cant": "bounds all sources of bias of the sampled distribution for all sets of universes; sampled histograms of a run cannot exclude a further source", "anchors": ["include/Metropolis.hpp:resolve_transition", "include/Metropolis.hpp:acceptance_probability", "include/Ergodic_moves_3.hpp", "docs/metropolis-hastings.md"]}
{"id": "C103", "title": "The quickstart program tells the truth", "statement": "When the quickstart example exits with status 0, the initial universe was built as its source says (64 simplices, 3 timeslices, seed 92, stream 0) and found correct, exactly ten Metropolis transitions were drawn from stream 1 and the universe after them found correct, standard output is exactly the transcript of those ten transitions and of the counters of their history, standard error is empty, the file named on the command line (or cdt-quickstart.off) holds the universe after the tenth transition beside a manifest whose every field is the truth about it, no file but the four of the artifact differs from before, and reading the file back gives a valid triangulation with the counts of that universe. Otherwise, with a working standard error, it exits with 2 and its usage (more than one argument, no file touched) or with 1 and one message that is true; the messages about an accepted transition without a candidate and about inconsistent counters are never printed. At every moment the files are as before or a stage of writing that artifact. With the modelled library in place and nothing failing from outside it exits with 0, and the stored universe is in order with the topology of the initial one.", "quantifier": "every argument list, prior file contents, failure of any print or file operation, crash point, generator, outcome of the ten transitions", "why_tests_cant": "the test of the example runs it once on one machine; wrong reports only show when a transition, a print or a file operation goes another way", "anchors": ["examples/cpp_api_quickstart.cpp:main", "examples/cpp_api_quickstart.cpp:same_finite_counts", "include/Metropolis.hpp:attempt_transition", "include/Metropolis.hpp:reproducibility_metadata", "include/Utilities.hpp:write_file", "include/Utilities.hpp:read_file"]}
{"id": "C104", "title": "A command line does what its words say", "statement": "cdt, initialize and cdt-viewer understand exactly the command lines of one grammar: --name, --name value, --name=value, unambiguous abbreviations of long names, -c, -c value, -cvalue, groups of letters, and -- as the end. Every setting then has the value written for it, or its documented default if it is not given; integers are decimal with an optional sign and must fit 64 bits; no option may be given twice. The order of the options and the way each is written make no difference, and an option written as --name=value is always read back as that name and value. For every other command line (unknown or repeated option, missing or unexpected or unreadable value, ambiguous abbreviation) the program exits with status 1 and no file is touched. Words that belong to no option are ignored, and a negative seed is taken modulo 2^64.", "quantifier": "every list of argument words (any bytes), any prior file system, any conversion of floating-point texts", "why_tests_cant": "the set of command lines is infinite and the tests try a dozen; which words are swallowed as values, as abbreviations or as groups of letters depends on the whole table of options", "anchors": ["src/cdt.cpp: main", "src/initialize.cpp: main", "src/cdt-viewer.cpp: main"]}
{"id": "C105", "title": "is_fixed answers truthfully and looping on it terminates", "statement": "is_fixed() on any triangulation object answers no exactly when the triangulation is already causal, and then changes nothing. Otherwise it removes one offending vertex of every acausal tetrahedron (one of the latest slice unless that slice holds more of the tetrahedron's vertices than the earliest, then one of the earliest) and no other vertex, rebuilds the object and answers yes; or the rebuild throws. A yes leaves a well-formed object with strictly fewer vertices, all of them vertices from before with their old time values, so `while (t.is_fixed()) {}` ends after at most (number of vertices - 3) calls, and then the triangulation is causal.", "quantifier": "every finished triangulation of any size, any order in which CGAL enumerates cells and vertices, any re-triangulation CGAL makes on removal", "why_tests_cant": "termination and the choice of removed vertices over all triangulations and all enumeration orders", "anchors": ["include/Foliated_triangulation.hpp: FoliatedTriangulation::is_fixed", "include/Foliated_triangulation.hpp: find_bad_vertex, fix_timevalues, fix_cells, fix_vertices"]}
{"id": "C106", "title": "A run can be repeated from any one of its manifests", "statement": "Take any artifact a run of cdt has written and pass the values on the lines of its manifest (desired.simplices, desired.timeslices, initial_radius, foliation_spacing, random.seed, parallel.max_threads, alpha, k, lambda, configured_passes, checkpoint_interval), as they are spelled there, as options together with --spherical, in any order and any spelling the command line accepts. On a machine that builds the same universe from the same arguments, whatever its entropy, clock and files, the two runs write the same artifacts: as far as both get, the contents are the same byte for byte and the names the same up to the time of writing; and if the repetition succeeds it writes the artifact it was made from again.", "quantifier": "every command line of the first run, every artifact it wrote, every order and spelling of the options of the second, all entropy, clocks, disks and faults of both", "why_tests_cant": "the claim joins the text written, the text read and all later random choices for every configuration; a test repeats a few runs with a few seeds", "anchors": ["src/cdt.cpp: main", "include/Utilities.hpp: metadata_text", "include/Runtime_config.hpp: make_simulation", "include/Utilities.hpp: write_file"]}
{"id": "C107", "title": "Programs with different seeds can share a directory", "statement": "Start any number of cdt and initialize processes in one directory, each with its own command line, clock, entropy and file faults, no two with the same seed (given or drawn). However their accesses to the file system are interleaved, and whichever of them are killed at whatever point: a process that ends has the exit status, the completed writes and the files it would have had if it had been alone; a process that has not ended has completed the first of those writes, and the files with its seed in their names are as they would have been at some moment of its run alone; files without one of the seeds in their names are untouched; and every process ends if it is given enough turns. With equal seeds this fails.", "quantifier": "every number of processes, all command lines with different seeds, all initial files, all faults, every interleaving of the file system accesses, every set of kill points", "why_tests_cant": "the interleavings of several processes are too many to try, and a test cannot choose them", "anchors": ["src/cdt.cpp: main", "src/initialize.cpp: main", "include/Utilities.hpp: write_file", "include/Utilities.hpp: make_filename", "include/Utilities.hpp: replace_file"]}
{"id": "C108", "title": "What a simulation has left on disk at any moment, however it is killed", "statement": "Stop the clock at any moment of a run of cdt (or initialize) that shares a directory with any number of processes with other seeds, any of which, itself included, may have been killed at any access to the file system. The run has completed the first of the artifacts that are due, in order; each of them says the truth and is in place with its manifest. Every other artifact name with its seed is as it was before the run, except perhaps that of the artifact due next: its manifest is there, and its payload is the old file or the complete new one. A completed artifact reads back as the state of its pass; whatever can be read under a name that was free before the run is the state after a pass that is due, and (for the assembled program) a causal triangulation with the slices of the initial universe.", "quantifier": "every command line, random stream, initial directory, set of other processes, file fault, interleaving and kill point", "why_tests_cant": "a test cannot stop the program between two accesses to the file system, nor try all interleavings with other programs", "anchors": ["src/cdt.cpp: main", "src/initialize.cpp: main", "include/Metropolis.hpp: operator()", "include/Utilities.hpp: write_file", "include/Utilities.hpp: read_file"]}
{"id": "C109", "title": "Looking at a universe while it is simulated", "statement": "Run cdt-viewer while any number of cdt and initialize processes with different seeds work in the directory it looks at; its six looks at the files (render manifest, SHA-256 of the fixture, whether there is a manifest, the manifest, the checksum, the contents) may each come at a different moment, between any accesses of the other programs. If the render manifest and the fixture have none of their seeds in their names, the viewer prepares what it would prepare if it were alone. If the fixture is an artifact that had been completed by the second look, it prepares what it would prepare if all programs had stopped then. If the fixture is an artifact of a running cdt whose name was free before the run, then whatever it draws, at whatever moments it looked, is the state after a pass that is due, the file has the SHA-256 the render manifest demands, and the state agrees with the render manifest. If a file of that name existed and is replaced meanwhile, the last may fail.", "quantifier": "every set of processes with different seeds, command lines, initial directory, faults, interleaving, kill points, and moments of the six looks", "why_tests_cant": "a test cannot place the six looks of one program between the accesses of others", "anchors": ["src/cdt-viewer.cpp: main", "src/cdt-viewer.cpp: sha256", "include/Utilities.hpp: read_file", "src/cdt.cpp: main", "src/initialize.cpp: main"]}
{"id": "C110", "title": "What is left after a power loss", "statement": "Power is lost while any number of cdt and initialize processes with different seeds work in a directory. The programs flush their streams but never ask the operating system to put the data on the disk, so every file name, independently of the others, may have lost its file or may hold only the beginning of something it held at some earlier moment. Nevertheless, if an artifact name of a cdt was free before it was started, and afterwards that file can be read with its manifest or a part of its manifest next to it, then what is read is exactly the state after the pass of that name, and the file is complete byte by byte; the manifest has every line the program wrote, the last one (the fingerprint of the topology) perhaps without some last digits, and is read as the record the program wrote. The same holds for the artifact of initialize. If the manifest is lost altogether this may fail: a payload cut before its labels is read as a triangulation without labels.", "quantifier": "every set of processes with different seeds, command lines, initial directory, faults, interleaving, moment of the power loss, and every choice of what it leaves of each file", "why_tests_cant": "a test cannot cut the power, and cannot try every combination of truncated files", "anchors": ["include/Utilities.hpp: write_payload", "include/Utilities.hpp: write_text", "include/Utilities.hpp: read_file", "include/Utilities.hpp: read_persistence_metadata", "src/cdt.cpp: main", "src/initialize.cpp: main"]}
{"id": "C111", "title": "The initial universe can be built again from any manifest", "statement": "Take the manifest of the artifact initialize wrote, or of any artifact, checkpoint or final, of a run of cdt, and pass the values on the lines desired.simplices, desired.timeslices, initial_radius, foliation_spacing, random.seed and parallel.max_threads, as they are spelled there, to initialize with --spherical --output, in any order and any spelling the command line accepts. On a machine that builds the same universe from the same arguments, whatever its entropy, clock and files, initialize either exits 0 and has written exactly one artifact, or exits 1 and completed no write. The artifact is the one initialize wrote before, payload and manifest byte for byte and the name up to the time of writing; and in the case of cdt it is exactly the universe from which that run had started, with a manifest that describes it truthfully.", "quantifier": "every command line, entropy, clock, directory and fault history of the first program, every manifest it has written, every ordering and spelling of the words, and every entropy, clock, directory and fault history of the second program", "why_tests_cant": "it speaks of all command lines and all spellings of numbers, and of all machines' clocks, entropies and faults", "anchors": ["src/initialize.cpp: main", "src/cdt.cpp: main", "include/Utilities.hpp: metadata_text", "include/Utilities.hpp: write_file", "include/Runtime_config.hpp: make_triangulation"]}
{"id": "C112", "title": "Every line of a manifest says what it should", "statement": "The manifest of every artifact cdt has written, checkpoint or final, under whatever command line, entropy, directory and faults, consists of exactly the documented lines in the documented order: the size and digest of the payload, the kind of artifact, the replay contract, the build, the seed (given or drawn) and the streams 0 and 1, the topology, the requested counts, the counts and the least and greatest time label of the stored triangulation, the radius and spacing of the manifold, the couplings, the requested passes and the checkpoint interval, the pass after which it was written, the thread limit, the digest and the number of all transitions made until then, and the fingerprints of the stored triangulation. The manifest initialize writes consists of the same lines without those about couplings, passes and transitions.", "quantifier": "every command line, entropy, clock, directory, fault history, and every artifact written", "why_tests_cant": "a line with the wrong value is noticed only in the runs where the two values differ, and not at all for the lines that are not read back", "anchors": ["include/Utilities.hpp: metadata_text, make_reproducibility_metadata, update_reproducibility_state", "include/Metropolis.hpp: reproducibility_metadata", "src/cdt.cpp: main", "src/initialize.cpp: main"]}
{"id": "C113", "title": "The name of an artifact says what it is", "statement": "Every artifact that cdt has written, under whatever command line, entropy, directory and faults, is named S3-<last time slice>-<simplices>-I<radius>-R<spacing>-<time>UTC-seed-<seed>.off, with -pass-<pass> before .off exactly if it is a checkpoint: time slice, number of simplices, radius and spacing are those of the state stored in it (radius and spacing with six decimals, rounded to a nearest one), the seed is the given or drawn one, the pass is the one after which that state was reached, and the time is written with four and two digits. initialize names its artifact the same way, without a pass. The times in the names are readings of the clock made during the run, in the order in which the artifacts were written.", "quantifier": "every command line, entropy, clock, directory, fault history, and every artifact written", "why_tests_cant": "all states, all radii (rounding), all seeds and passes", "anchors": ["include/Utilities.hpp: make_filename, current_date_time, write_file", "src/cdt.cpp: main", "src/initialize.cpp: main"]}
{"id": "C114", "title": "Listings of single simplices are true", "statement": "print_cells of a structurally correct manifold prints every finite tetrahedron exactly once, with its four different corners, the time label of each, and the type those labels give it. print_vertices prints every finite vertex exactly once with its label, which after construction is the one its radius implies. print_neighboring_cells prints for each corner of a tetrahedron the one other tetrahedron with the remaining three corners; print_edge names the two different ends of an edge with their own labels. print_volume_per_timeslice prints one line per slice and ends without overflow of its 32-bit counter exactly if no vertex has the label INT_MAX.", "quantifier": "every triangulation, order of iteration, order of the vertices inside a cell, text of points, and time labels of 32 bits", "why_tests_cant": "A test prints a few triangulations; the claim covers every triangulation and every order in which CGAL stores cells and vertices, and labels up to the limit of the type.", "anchors": ["include/Foliated_triangulation.hpp: print_vertices, print_cell, print_cells, print_neighboring_cells, print_edge, print_volume_per_timeslice", "include/Manifold.hpp: print_cells, print_vertices, print_volume_per_timeslice"]}
{"id": "C115", "title": "The slice index holds exactly the facets on each slice", "statement": "volume_per_timeslice, given any facets of a triangulation in any order and with any repetitions, returns an index ordered by time that holds under each time exactly those of them whose three vertices have that time label, in the given order; collect_spacelike_facets returns the same entries in the same order. Given the finite facets each once, it holds for each time as many as spacelike_face_count reports, whichever of its two cells each facet is given by.", "quantifier": "every triangulation, every list of facets, every order of the vertices in a cell, every time", "why_tests_cant": "A test indexes a few triangulations; the claim covers every list of facets and every way CGAL may name them.", "anchors": ["include/Foliated_triangulation.hpp: collect_spacelike_facets, volume_per_timeslice, spacelike_face_count"]}
{"id": "C116", "title": "Trying one move at one given site", "statement": "try_23_move and try_32_move either return false and leave the triangulation exactly as it was, or return true and have performed exactly the (2,3) or (3,2) move at the given tetrahedron or edge; they return true exactly if the site has the right causal shape, the simplex to be created does not exist yet and CGAL's geometric test accepts the flip. try_62_move returns a triangulation exactly if the vertex has a (6,2) star and the slice triangle under it is new, whatever the random numbers; what it returns is the (6,2) move removing that vertex, has passed the validator if one was given, and for a vertex that is no candidate no random number is drawn.", "quantifier": "every closed (for the exact conditions: sound) triangulation, every cell, edge or vertex, every validator, every generator state", "why_tests_cant": "The sites are arbitrary cells, edges and vertices of an arbitrary triangulation; tests try a handful of hand-built sites.", "anchors": ["include/Ergodic_moves_3.hpp: try_23_move, try_32_move, try_62_move, try_62_move_impl"]}
