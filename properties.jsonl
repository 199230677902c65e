{"id": "C01", "title": "Finite scores only for valid solutions", "statement": "Scoring::evaluate returns a finite score only if the solution is complete and valid: every scheduling and assignment constraint of the input holds, every chooser attends exactly one choice in every slot, and every scheduled choice has between min and max participants; conversely such a solution passes the feasibility check.", "quantifier": "every input, every scheduling and every assignment matrix of the right shape", "why_tests_cant": "the space of schedulings x assignments x constraint sets is unbounded; tests sample a handful of solutions", "anchors": ["src/scoring.rs: Scoring::is_feasible, satisfies_constraints_scheduling, satisfies_constraints_assignment, evaluate"]}
{"id": "C02", "title": "Scheduling feasibility check is exact", "statement": "Scheduling::is_feasible holds iff every non-optional choice is scheduled, for every slot sum(min) <= #choosers <= sum(max) over the choices in it, and every scheduling constraint holds.", "quantifier": "every input without u32 overflow of the min/max sums and every scheduling whose slots exist", "why_tests_cant": "all schedulings of all inputs", "anchors": ["src/scheduling.rs: Scheduling::is_feasible"]}
{"id": "C03", "title": "Produced schedulings are feasible", "statement": "Whenever SchedulingSolver::next_scheduling returns true, SchedulingSolver::scheduling() is a feasible scheduling for the input (C02 sense).", "quantifier": "every input, every random stream, every clock behaviour, every critical-set pruning, every call in a sequence of calls", "why_tests_cant": "random order and clock make the set of executions unbounded", "anchors": ["src/scheduling_solver.rs: next_scheduling, solve_scheduling"]}
{"id": "C04", "title": "'No scheduling' is only reported when none exists", "statement": "If next_scheduling returns false although no time limit was hit, then the input has no feasible scheduling.", "quantifier": "every input, every random stream", "why_tests_cant": "exhaustiveness of a backtracking search cannot be observed on samples", "anchors": ["src/scheduling_solver.rs: solve_scheduling, calculate_critical_slots, calculate_feasible_slots"]}
{"id": "C05", "title": "The scheduling search terminates", "statement": "solve_scheduling stops after finitely many loop iterations for every input and random stream even with no time limit.", "quantifier": "every input, every random stream", "why_tests_cant": "non-termination cannot be refuted by running", "anchors": ["src/scheduling_solver.rs: solve_scheduling, next_scheduling"]}
{"id": "C06", "title": "Solved assignments are valid", "statement": "Whenever AssignmentSolver::solve returns an assignment for a scheduling of the input, the assignment places every chooser in every slot in a choice scheduled in that slot, respects min/max of every scheduled choice and satisfies every assignment constraint.", "quantifier": "every input, scheduling, preference limit, deadline behaviour and every feasible answer of the MIP backend", "why_tests_cant": "the encoding must be sound for all constraint combinations", "anchors": ["src/assignment_solver.rs: solve_with_limit, create_edge_groups, build_blocked_constraint_edges", "src/mip_flow.rs: MipFlow::solve, create_edge_group_or_block_edges"]}
{"id": "C07", "title": "Solved assignments are optimal for their preference limit", "statement": "For a fixed preference limit the assignment returned is a minimum-cost one among all valid assignments for that scheduling that use no (chooser, choice) pair worse than the limit.", "quantifier": "every input, scheduling, limit and every optimal answer of the MIP backend", "why_tests_cant": "optimality quantifies over all competing assignments", "anchors": ["src/assignment_solver.rs: solve_with_limit", "src/mip_flow.rs: MipFlow::solve"]}
{"id": "C08", "title": "No assignment means none exists", "statement": "If solving for a limit reports infeasible (no deadline involved) there is no valid assignment of that scheduling within the limit; hence AssignmentSolver::solve returning None with no deadline means no valid assignment exists for the scheduling at all.", "quantifier": "every input, scheduling and backend that reports infeasibility only for infeasible models", "why_tests_cant": "completeness of the encoding quantifies over all assignments", "anchors": ["src/assignment_solver.rs: solve_until, solve_with_limit"]}
{"id": "C09", "title": "Preference search finds the smallest feasible level", "statement": "The binary search over preference levels returns the assignment of the smallest feasible level at or above the search start, and terminates, for every monotone feasibility predicate; with inconclusive levels it still only returns feasible assignments.", "quantifier": "every list of levels, every start, every monotone oracle, every pattern of inconclusive answers", "why_tests_cant": "off-by-one errors depend on list length and answer pattern", "anchors": ["src/assignment_solver.rs: solve_until"]}
{"id": "C10", "title": "The assignment minimises the worst preference", "statement": "In the default (non-greedy) mode the assignment returned for a scheduling has the least possible worst (mirrored) preference among all valid assignments of that scheduling.", "quantifier": "every input and scheduling", "why_tests_cant": "optimality over all assignments", "anchors": ["src/assignment_solver.rs: solve_until", "src/input/input_builder.rs: build_preference_levels", "doc/src/Concept.md: Binary search through preference levels"]}
{"id": "C11", "title": "Reusing a solver does not change the problem", "statement": "After any sequence of solve calls on different schedulings the incrementally maintained per-slot choice lists, covered-chooser counts and blocked edges describe exactly the current scheduling (same as a fresh solver, up to order inside a slot) and no counter underflows.", "quantifier": "every sequence of schedulings", "why_tests_cant": "the state space is all histories", "anchors": ["src/assignment_solver.rs: update_schedule_state, build_schedule_state_from_scratch, prepare_schedule_state"]}
{"id": "C12", "title": "Cached assignments are only reused for the same scheduling", "statement": "A solver that has already solved a scheduling conclusively returns the very same assignment again without a new solve, and a cached result is never returned for a different scheduling; inconclusive results are never cached.", "quantifier": "every sequence of solve calls", "why_tests_cant": "history property", "anchors": ["src/assignment_solver.rs: solve_until, finish_assignment_result"]}
{"id": "C13", "title": "Critical sets never rule out a good scheduling", "statement": "If a scheduling admits a valid assignment whose worst preference is at most L, then it (and every partial decision state that leads to it) satisfies every critical set used at preference limit L.", "quantifier": "every input, limit, scheduling, assignment and partial decision state", "why_tests_cant": "soundness of a pruning rule over all solutions", "anchors": ["src/critical_set_analysis.rs: analyze, for_preference, build_cache", "src/scheduling_solver.rs: satisfies_critical_sets"]}
{"id": "C14", "title": "Simplification and caching of critical sets lose nothing", "statement": "A scheduling satisfies all critical sets of preference >= L before simplification/minimisation iff it satisfies the sets returned for level L afterwards.", "quantifier": "every input, level and scheduling", "why_tests_cant": "equivalence over all schedulings", "anchors": ["src/critical_set_analysis.rs: analyze (simplify), build_cache, insert_minimal_set", "src/critical_set.rs: is_covered_by, is_superset_of"]}
{"id": "C15", "title": "The preference bound is a true lower bound", "statement": "No valid solution of the input has a worst preference below CriticalSetAnalysis::preference_bound() (more precisely: no preference level below the bound admits a solution).", "quantifier": "every input and every solution", "why_tests_cant": "quantifies over all solutions", "anchors": ["src/critical_set_analysis.rs: CriticalSetAnalysis::new, preference_bound", "doc/src/Concept.md: Preference bound"]}
{"id": "C16", "title": "Hill climbing never makes things worse", "statement": "Hill climbing returns either Invalid or a complete valid solution whose score is not worse than that of the starting scheduling's own assignment, every published improvement is strictly better than the previous one and valid.", "quantifier": "every starting scheduling, random stream, clock and assignment-solver behaviour", "why_tests_cant": "unbounded number of rounds and interleavings with the deadline", "anchors": ["src/hill_climbing_solver.rs: solve"]}
{"id": "C17", "title": "Neighbour keys enumerate exactly the single moves", "statement": "The move neighbours of a scheduling are, without repetition, exactly the schedulings that differ from it in the slot (or omission) of exactly one choice.", "quantifier": "every number of choices and slots and every scheduling", "why_tests_cant": "bijection over unbounded sizes", "anchors": ["src/hill_climbing_solver.rs: neighbor, max_neighbor_key"]}
{"id": "C18", "title": "Swap neighbours permute slot occupancy", "statement": "A random swap neighbour assigns every slot exactly as many choices as before (it only permutes slots among choices).", "quantifier": "every scheduling and random stream", "why_tests_cant": "random", "anchors": ["src/hill_climbing_solver.rs: random_swap_neighbor"]}
{"id": "C19", "title": "Neighbour selection respects feasibility and the neighbour limit", "statement": "pick_neighbors returns only feasible schedulings and at most max_neighbors of them, and the number of random swaps it tries per round is bounded by the number of swaps there are and by max_neighbors, whatever the random stream.", "quantifier": "every scheduling, max_neighbors and random stream", "why_tests_cant": "random and unbounded", "anchors": ["src/hill_climbing_solver.rs: pick_neighbors", "doc/src/Manual.md: --max-neighbors"]}
{"id": "C20", "title": "Shotgun search keeps the best solution seen", "statement": "After any number of iterations the best solution recorded by a worker is Invalid or valid, its score is the minimum over all iterations, and iteration counts are exact.", "quantifier": "every number of iterations and every behaviour of the sub-solvers", "why_tests_cant": "unbounded histories", "anchors": ["src/shotgun_solver.rs: iterate, progress"]}
{"id": "C21", "title": "The threaded result is the best of all workers", "statement": "ThreadedSolver's final solution is Invalid iff no worker found a finite score, and otherwise is a worker's solution whose score is minimal over all workers, independent of the interleaving; a panicking worker makes the session report WorkerPanic.", "quantifier": "every number of workers, every worker outcome, every interleaving", "why_tests_cant": "thread schedules cannot be enumerated by tests", "anchors": ["src/threaded_solver.rs: start, wait"]}
{"id": "C22", "title": "Progress is monotone and attributed", "statement": "Whatever order progress events of different workers arrive in, the reported best score never gets worse, equals the minimum of all best-solution events so far, and the reported solution is the one that came with that score; events with an unknown worker index are ignored; when all events have arrived, the iterations, assignments and LPs shown are those of all workers.", "quantifier": "every event sequence and every split of it into polls", "why_tests_cant": "all interleavings", "anchors": ["src/threaded_solver.rs: ThreadedSolverRunning::progress"]}
{"id": "C23", "title": "Cancellation is sticky and bounded", "statement": "After cancel() every worker executes at most the iteration it is in and no further one; with --any, a worker that has a finite score stops and cancels the others; a single-slot input is iterated exactly at most once.", "quantifier": "every interleaving of workers and cancel", "why_tests_cant": "interleavings", "anchors": ["src/cancellation.rs", "src/threaded_solver.rs: start (worker loop)"]}
{"id": "C24", "title": "Multi-part choices run in consecutive slots with the same people", "statement": "In every valid solution of the data produced for an input, a choice with n parts is either entirely unscheduled or its parts occupy n consecutive slots in order, and all parts have the same participants.", "quantifier": "every input, every part count and every valid solution", "why_tests_cant": "unbounded parts", "anchors": ["src/input/input_builder.rs: compile_choices, compute_part_constraints"]}
{"id": "C25", "title": "Preferences are mirrored and expanded per part", "statement": "After reading, each chooser's preference for each part of a choice is (global maximum given preference) minus the given preference for that choice, before dependency adjustments, and the vector has one entry per internal choice.", "quantifier": "every chooser list, preference matrix and part counts", "why_tests_cant": "unbounded matrices, index arithmetic over part expansion", "anchors": ["src/input/input_builder.rs: build_preferences, compile_choices"]}
{"id": "C26", "title": "Preference levels are the normalized preference values", "statement": "InputData::preference_levels is sorted, duplicate-free and lists the distinct preference values of the normalized input (plus 0 and the maximum).", "quantifier": "every input", "why_tests_cant": "all preference matrices", "anchors": ["src/input/input_builder.rs: build_preference_levels", "src/input_data.rs: preference_levels doc"]}
{"id": "C27", "title": "Preprocessing keeps exactly the given constraints' meaning", "statement": "A solution satisfies the preprocessed constraints iff it satisfies the constraints as written (every written constraint is enforced, nothing else is forbidden).", "quantifier": "every constraint list and every solution", "why_tests_cant": "equivalence over all solutions", "anchors": ["src/constraints.rs: reduce_and_optimize, expand_dependent_constraints"]}
{"id": "C28", "title": "Constraint preprocessing is insensitive to repetition and order", "statement": "Stating a constraint twice or reordering the constraints does not change which solutions are accepted.", "quantifier": "every constraint list and permutation/duplication of it", "why_tests_cant": "all lists", "anchors": ["src/constraints.rs: expand_dependent_constraints, get_mandatory_critical_sets"]}
{"id": "C29", "title": "Dependent choices share limits and preferences", "statement": "All choices forced to have the same choosers get the largest of their minima, the smallest of their maxima and (per chooser) the best of their preferences; a chooser's mandatory choices cost 0; independent choices are unchanged.", "quantifier": "every constraint list and choice list", "why_tests_cant": "unbounded groups", "anchors": ["src/input/input_builder.rs: get_dependent_choice_limits, get_dependent_preferences"]}
{"id": "C30", "title": "A constraint expression means what it says", "statement": "Every accepted constraint expression is compiled to a constraint that a solution satisfies iff the documented relation holds, whichever side the operands are written on; everything else is rejected as unsupported.", "quantifier": "every expression, every naming of objects and every solution", "why_tests_cant": "all expressions x all solutions", "anchors": ["src/input/constraint_builder.rs: build, add_constraint, resolve_accessor", "doc/src/Manual.md: Constraints"]}
{"id": "C31", "title": "Name lookup prefers exact, then token, then substring matches", "statement": "A lookup returns all names equal to the key if any; otherwise those whose first word is the key; otherwise those having the key as a word; otherwise those containing it; an exact unique name always resolves to that object.", "quantifier": "every key and name list", "why_tests_cant": "all strings", "anchors": ["src/input/fuzzy_match.rs: FuzzyMatch::find", "src/input/constraint_builder.rs: find_name", "src/input/rhai_interface.rs: find_registered_name"]}
{"id": "C32", "title": "A fresh name creates a fresh object", "statement": "slot(name)/choice(name)/chooser(name) with a name that no registered object has creates a new object with that name.", "quantifier": "every reader state and name", "why_tests_cant": "all histories and strings", "anchors": ["src/input/rhai_interface.rs: slot, choice, chooser", "doc/src/Manual.md: Adding slots, choices, choosers"]}
{"id": "C33", "title": "Registered names are unique and registration is idempotent", "statement": "As long as objects are not renamed after registration, no two registered objects of a kind share a name; adding an object again changes nothing; adding a second object of the same name is rejected and leaves the state unchanged.", "quantifier": "every sequence of create/register/lookup operations", "why_tests_cant": "histories", "anchors": ["src/input/rhai_interface.rs: register_slot, register_choice, register_chooser, set_name"]}
{"id": "C34", "title": "Bad inputs are rejected", "statement": "read_input succeeds only if every created object was added, at least one choice and one chooser exist and every chooser gives one preference per choice; with no slots exactly one generated slot is used.", "quantifier": "every sequence of script operations", "why_tests_cant": "histories", "anchors": ["src/input/input_reader.rs: read_input", "src/input/input_builder.rs: process_input_reader, build_preferences"]}
{"id": "C35", "title": "Reading is independent of earlier reads", "statement": "The InputData produced by read_input does not depend on what the same reader read before (also after a failed read).", "quantifier": "every reader history", "why_tests_cant": "histories", "anchors": ["src/input/input_reader.rs: read_input, sync_from_state"]}
{"id": "C36", "title": "set_arguments is all-or-nothing", "statement": "set_arguments either applies all given arguments in order or fails and leaves the effective options unchanged; it never touches options not named.", "quantifier": "every argument list and initial options", "why_tests_cant": "all lists", "anchors": ["src/input/rhai_interface.rs: set_arguments"]}
{"id": "C37", "title": "Time strings denote sums of their components", "statement": "parse_time of any concatenation of [number][unit] components returns the sum in seconds if every intermediate value fits in i32, and rejects strings with other characters; overflow is never silently accepted.", "quantifier": "every string", "why_tests_cant": "all strings, overflow boundaries", "anchors": ["src/options.rs: Options::parse_time", "doc/src/Manual.md: Time format"]}
{"id": "C38", "title": "range and slice are inclusive", "statement": "range(x,y) lists x..y inclusive in order (empty if x>y); slice(x,y) returns exactly the elements with indices x..y, end meaning the last index, and fails exactly for out-of-range indices.", "quantifier": "every list and bounds", "why_tests_cant": "all lists and bounds", "anchors": ["src/input/rhai_interface.rs: range, slice"]}
{"id": "C39", "title": "Score order is a total preorder with invalid last", "statement": "Within one mode (greedy or not) comparing scores is reflexive, transitive, total and antisymmetric up to Equal; every non-finite score is strictly worse than every finite one; non-greedy scores compare worst preference first.", "quantifier": "all pairs/triples of f32 bit patterns incl. NaN payloads, signed zeros, infinities", "why_tests_cant": "2^64 pairs of scores", "anchors": ["src/score.rs: Score::cmp, is_finite"]}
{"id": "C40", "title": "Assignment CSV tells the truth", "statement": "For a valid solution the assignment CSV has one row per chooser in input order, and the cell in the column of slot s is the name of the choice that chooser attends in slot s (generated-part prefix removed); an assignment to an unscheduled choice or a missing part of the solution is reported as an error.", "quantifier": "every input and solution", "why_tests_cant": "all solutions", "anchors": ["src/output_formatter.rs: write_assignment_solution"]}
{"id": "C41", "title": "Scheduling CSV tells the truth", "statement": "The scheduling CSV has one row per internal choice in order with the name of its slot or 'not scheduled'.", "quantifier": "every input and solution", "why_tests_cant": "all solutions", "anchors": ["src/output_formatter.rs: write_scheduling_solution"]}
{"id": "C42", "title": "Shuffle-merging keeps both orders", "statement": "riffle_shuffle returns an interleaving: a permutation of both inputs that keeps the relative order of each, and never panics.", "quantifier": "every pair of lists and every shuffle outcome", "why_tests_cant": "random", "anchors": ["src/util.rs: riffle_shuffle"]}
{"id": "C43", "title": "Random indices stay in range", "statement": "next_in_range(min,max) lies in min..max for every i32 sample whenever min<max and max-min fits.", "quantifier": "every i32 sample and bounds", "why_tests_cant": "2^32 samples x bounds", "anchors": ["src/rng.rs: next_in_range"]}
{"id": "C44", "title": "Workers get distinct seeds", "statement": "For a fixed global seed different worker indices get different derived seeds.", "quantifier": "all 2^64 seeds and all pairs of streams", "why_tests_cant": "2^128 pairs", "anchors": ["src/rng.rs: mix_seed, derived_seed"]}
{"id": "C45", "title": "Dependency groups are the equivalence closure", "statement": "The groups computed for same-chooser constraints partition the choices and two choices share a group iff they are connected by same-chooser constraints.", "quantifier": "every constraint list and choice count", "why_tests_cant": "all graphs", "anchors": ["src/union_find.rs", "src/constraints.rs: get_dependent_choices"]}
{"id": "C46", "title": "Per-choice constraint lookup is exact", "statement": "The constraints looked up for a choice are exactly the scheduling constraints that mention it or limit a slot size.", "quantifier": "every constraint list and choice", "why_tests_cant": "all lists", "anchors": ["src/input/input_builder.rs: build_constraint_maps", "src/input_data.rs: scheduling_constraints_for"]}
{"id": "C47", "title": "Flow keys do not collide", "statement": "Distinct (chooser,slot), choice and slot nodes and distinct edges get distinct keys.", "quantifier": "all indices within the supported ranges", "why_tests_cant": "2^64 keys", "anchors": ["src/mip_flow_static_data.rs: make_long, node_chooser, node_choice, node_slot, edge_id"]}
{"id": "C48", "title": "Accepted inputs are internally consistent", "statement": "Every InputData returned by read_input is well formed: every constraint refers to existing objects of the right kind, every chooser has one preference per internal choice, preferences do not exceed the maximum, continuations point to the next part, choice map entries exist; so no later lookup is out of range.", "quantifier": "every script result accepted", "why_tests_cant": "all inputs", "anchors": ["src/input/input_builder.rs", "src/input_data.rs"]}
{"id": "C49", "title": "Accepted inputs do not crash the solver", "statement": "For every script whose participant limits are not contradictory after merging dependent choices and whose sizes, sums and numbers (also those in constraints and the critical set timeout) fit the integer types, reading, preparing, solving and printing never panic: the only failure is an ordinary error while reading.", "quantifier": "every script, random stream, clock, interleaving and sound backend", "why_tests_cant": "panics depend on rare combinations", "anchors": ["src/assignment_solver.rs: solve_with_limit (max - min)", "src/scheduling_solver.rs", "src/scheduling.rs", "src/scoring.rs"]}
{"id": "C50", "title": "Numeric choice arguments mean their value", "statement": "min/max/parts/bounds given as integer or as numeric string denote that number, and anything that is not representable is rejected.", "quantifier": "all i64 values and strings", "why_tests_cant": "2^64 values", "anchors": ["src/input/rhai_interface.rs: register_interface (min,max,parts,bounds), parse_string_uint, choice"]}
{"id": "C51", "title": "Negating a constraint complements it", "statement": "The negation of a constraint accepts exactly the solutions the constraint rejects, and negating twice gives the constraint back, for all negatable kinds.", "quantifier": "every constraint and every solution", "why_tests_cant": "all solutions", "anchors": ["src/constraint.rs: Constraint::negation, SlotSizeLimitOp::negation"]}
{"id": "C52", "title": "End to end: printed solutions are valid", "statement": "For every script accepted by the reader and every behaviour of randomness, clock, threads and MIP backend, the program either prints 'No solution found.' or prints a scheduling and an assignment that satisfy all the written constraints, bounds, parts and slots.", "quantifier": "every script, random stream, clock, interleaving and backend answer", "why_tests_cant": "the composition of all of the above", "anchors": ["src/main.rs: try_run", "src/threaded_solver.rs", "src/input/input_reader.rs"]}
{"id": "C53", "title": "A failing interface call has no effect", "statement": "A call of the script interface (slot, choice, chooser, add, name, set_arguments, constraint) that raises an error leaves the reader and the options as they were, so a script that catches the error goes on as if the call had not been made.", "quantifier": "every script, every reachable reader state and every call", "why_tests_cant": "histories and failure points", "anchors": ["src/input/rhai_interface.rs: slot, choice, chooser, register_slot, register_choice, register_chooser, set_arguments"]}
{"id": "C54", "title": "No script can crash the reader", "statement": "Evaluating a script ends normally or with a reported error, never with a panic.", "quantifier": "every script", "why_tests_cant": "all scripts", "anchors": ["src/input/rhai_interface.rs", "src/input/input_reader.rs: read_input"]}
{"id": "C55", "title": "The input read is the input described", "statement": "read_input builds its result from exactly the slots, choices, choosers and constraints the script successfully added, in the order of the first additions; each object has the name given to it last and the numbers of the call that first returned it.", "quantifier": "every script, including failed, repeated and renaming calls", "why_tests_cant": "all histories of calls", "anchors": ["src/input/rhai_interface.rs: slot, choice, chooser, register_*, set_name", "src/input/input_reader.rs: sync_from_state"]}
{"id": "C56", "title": "Options do what they say", "statement": "--threads gives the number of workers (at least one; one for a single slot), --greedy drops the worst preference from the score, --no-cs and --greedy switch critical sets off, --any ends the session as soon as a valid solution was found and nothing else ends it early: undisturbed workers stop only when their search is exhausted, there is a single slot, or --any is satisfied; max-neighbors, pref-exp and greedy reach every worker.", "quantifier": "every option record, prepared input, interleaving and reachable session", "why_tests_cant": "option and interleaving space", "anchors": ["src/threaded_solver.rs: ThreadedSolver::new, start", "src/main.rs: try_run", "src/shotgun_solver.rs"]}
{"id": "C57", "title": "The result does not depend on thread timing", "statement": "Two complete sessions with the same options in which each worker has started the same number of iterations end with the same result, whatever the interleaving; and without --any, cancellation and timeout all complete sessions print the same output.", "quantifier": "every pair of interleavings of any number of workers", "why_tests_cant": "the interleavings are unbounded", "anchors": ["src/threaded_solver.rs: start, wait_for_result", "src/shotgun_solver.rs"]}
{"id": "C58", "title": "The verdict is the truth", "statement": "With several slots, a session that nobody cancels and no clock interrupts ends by itself only with the truth: it says 'No solution found.' and there is no valid solution at all, or --any was given and a valid solution is printed. In particular, if there is a solution, the program without --any runs until it is stopped.", "quantifier": "every accepted input, option record, random stream, interleaving and backend", "why_tests_cant": "the absence of solutions is not testable", "anchors": ["src/main.rs: try_run", "src/threaded_solver.rs: start", "src/scheduling_solver.rs: next_scheduling"]}
{"id": "C59", "title": "With a single slot the answer is optimal", "statement": "If there is one slot and no choice is optional, a session that no clock interrupts ends with the truth: 'No solution found.' is printed and there is no valid solution, or a valid solution is printed that is best: in greedy mode no valid solution has a smaller total cost; otherwise no valid solution has a smaller worst preference, and none with the same worst preference has a smaller total cost.", "quantifier": "every accepted input with one slot, option record, random stream, and exact backend", "why_tests_cant": "optimality is a statement about all assignments", "anchors": ["src/main.rs: try_run", "src/threaded_solver.rs: start", "src/shotgun_solver.rs: iterate", "src/hill_climbing_solver.rs: solve", "src/assignment_solver.rs: solve_until"]}
{"id": "C60", "title": "Every valid solution gets a finite score", "statement": "The score of a valid solution is the worst preference given out (NaN in greedy mode) and the f32 sum of count * value^exponent / scaling over the preference values, where count is the number of (chooser, slot) cells that get the value; this sum is finite, so that no valid solution is taken for an invalid one.", "quantifier": "every valid solution, preference exponent and size within the integer types", "why_tests_cant": "f32 overflow depends on rare combinations of counts, preferences and exponents", "anchors": ["src/scoring.rs: Scoring::new, evaluate, evaluate_minor", "src/options.rs: pref-exp"]}
{"id": "C61", "title": "The assignment solver optimises what the score ranks", "statement": "For a fixed scheduling and worst preference, the assignment the solver returns has the best score among all valid assignments.", "quantifier": "every input, scheduling, preference exponent and exact backend", "why_tests_cant": "optimality is a statement about all assignments", "anchors": ["src/assignment_solver.rs: solve_with_limit (edge costs)", "src/scoring.rs: evaluate_minor"]}
{"id": "C62", "title": "Rounding does not change the order of solutions", "statement": "Of two valid solutions with the same worst preference (any two in greedy mode), the one whose exact sum of count * value^exponent is smaller has the better score, unless the two sums differ by less than the accumulated rounding error.", "quantifier": "every pair of valid solutions, every exponent with moderate powers", "why_tests_cant": "rounding errors depend on all counts", "anchors": ["src/scoring.rs: evaluate_minor, evaluate", "src/score.rs: cmp"]}
{"id": "C63", "title": "Exit status and output files tell the truth", "statement": "The script text is standard input or the input files in order. Exit status 0 means that the input was read and accepted and the search came to an end; then either there is no solution and nothing is written, or both tables of a timetable that answers the input are written completely (to the files with the given prefix, every other file unchanged, or to standard output). Any other status means that nothing was written, except for tables before one that could not be written.", "quantifier": "every set of input files, every behaviour of the file system, every script, every interleaving", "why_tests_cant": "crash points and write failures at every point of the delivery", "anchors": ["src/main.rs: run, try_run, read_input_string, output_string"]}
{"id": "C64", "title": "Runs are reproducible", "statement": "With WASSIGN_SEED set to a number, the same command on the same input gives the same exit status and the same output, at whatever time it is started and however the workers are interleaved, unless the time limit strikes or several workers race for the first solution (--any).", "quantifier": "every input, every seed, every pair of interleavings", "why_tests_cant": "a test sees only a few interleavings", "anchors": ["src/main.rs: run", "src/rng.rs: derived_seed", "src/threaded_solver.rs: start"]}
{"id": "C65", "title": "The time limit is respected", "statement": "Nothing new is begun after the deadline: every LP and every assignment is preceded by a clock reading that says the deadline has not passed; a search for a scheduling that starts late finds nothing; hill climbing stops after the current assignment; and once the deadline has passed, the session is over after at most two more steps of each worker, during which the best solution does not change and is still returned.", "quantifier": "every input, every interleaving, every clock behaviour and every moment at which the deadline passes", "why_tests_cant": "the deadline can strike at every point of the execution", "anchors": ["src/threaded_solver.rs: start", "src/shotgun_solver.rs: iterate", "src/hill_climbing_solver.rs: solve", "src/assignment_solver.rs: solve_until, solve_with_limit", "src/scheduling_solver.rs: next_scheduling, solve_scheduling"]}
{"id": "C66", "title": "Log messages arrive whole", "statement": "The lines shown to the user are exactly the lines of the messages, in the order of the messages, each once, however the bytes are handed over; if some lines cannot be written, the others are still shown whole and in order.", "quantifier": "every sequence of messages, every chunking of their bytes, every pattern of write failures", "why_tests_cant": "chunkings and failures are unbounded", "anchors": ["src/status.rs: IndicatifLogWriter::write, flush, print_log_line, emit"]}
{"id": "C67", "title": "The status display is truthful", "statement": "The solver's progress bar stays between 0 and its length, moves forward while time passes and is full when the time is used up; the remaining time is that of the worker with most time left; the summary says 'No solution found.' exactly if the result is Invalid and otherwise shows the score of the returned solution with the true numbers of iterations, assignments and LPs; nested progress bars are restored.", "quantifier": "every time limit, clock, interleaving, order and batching of events, nesting of bars", "why_tests_cant": "interleavings and batchings are unbounded", "anchors": ["src/status.rs: track_solver, format_solver_summary, create_progress_bar, StatusProgress::drop", "src/threaded_solver.rs: ThreadedSolverRunning::progress"]}
{"id": "C68", "title": "A constraint is about the objects it was written with", "statement": "A constraint `l symbol r` made from objects, properties of objects (with part numbers) and integers demands that relation between exactly those objects of the input, whatever their names are and whatever similar names exist; if the script is accepted, every one of its constraints refers to existing objects and parts, and holds for them in the printed timetable.", "quantifier": "every script that builds its constraints with the interface and does not rename objects after using them, every input, every run", "why_tests_cant": "names, renamings and orders of calls are unbounded", "anchors": ["src/input/rhai_interface.rs: register_relation, register_contains, slot_accessor, choice_accessor, chooser_accessor, integer_accessor, slot_size, choice_slot_part", "src/input/constraint_builder.rs: build, resolve_accessor, find_name"]}
{"id": "C69", "title": "Hill climbing stops only at a local optimum", "statement": "Unless the deadline cuts it off, hill climbing stops only when it has picked neighbours for its current scheduling, solved the assignment of every one of them, and none of the results has a better score. If max-neighbors is at least twice the number of (choice, slot) pairs, every scheduling that satisfies the rules and differs from the current one in one choice is among them; so (exact backend, no climb cut off) no single move of the printed scheduling that keeps linked choices together admits a solution that is better for whoever is worst off.", "quantifier": "every input, start scheduling, random stream, limit on neighbours, assignment solver and interleaving", "why_tests_cant": "local optimality is a statement about all neighbours and all their assignments", "anchors": ["src/hill_climbing_solver.rs: solve, pick_neighbors", "src/shotgun_solver.rs: iterate"]}
{"id": "C70", "title": "One iteration suffices where every scheduling can be filled", "statement": "If every scheduling that satisfies the scheduling rules has a valid assignment, then as soon as one worker has completed one iteration the program has a valid solution to print.", "quantifier": "every such input, option record, random stream, interleaving and exact backend", "why_tests_cant": "the schedulings a worker may start from cannot be enumerated by tests", "anchors": ["src/shotgun_solver.rs: iterate", "src/hill_climbing_solver.rs: solve", "src/assignment_solver.rs: solve_until", "src/threaded_solver.rs: start"]}
{"id": "C71", "title": "The scheduling search proceeds in the documented order", "statement": "Within one search the choices are decided on in an order that contains every choice once and in which a choice with more scheduling constraints precedes one with fewer; at every moment the choices decided on are an initial segment of that order. If, without revising earlier decisions in between, the search places a choice in slot a and later tries it in slot b, then a was less full (sum of the maxima of the choices placed there so far) than b, or as full and listed before it.", "quantifier": "every input, random stream, set of critical sets and every point of every search", "why_tests_cant": "a statement about every pair of moments of an unbounded backtracking run", "anchors": ["src/scheduling_solver.rs: get_choice_scramble, calculate_feasible_slots, slot_order_heuristic_score, solve_scheduling", "doc/src/Concept.md: Solving schedulings (heuristics)"]}
{"id": "C72", "title": "Nothing better was ever seen", "statement": "The solution the program prints has a score at most that of every solution any worker's assignment solver produced at any point of the run, also of neighbours looked at during climbs that the deadline cut off and in iterations whose result was discarded; if it prints that there is no solution, none of these solutions has a finite score. The same holds for what a climb returns and, at every moment, for what a worker has recorded.", "quantifier": "every input, option record, random stream, clock, interleaving and behaviour of the MIP backend", "why_tests_cant": "a statement about every intermediate result of an unbounded run", "anchors": ["src/hill_climbing_solver.rs: solve", "src/shotgun_solver.rs: iterate", "src/threaded_solver.rs: start", "src/main.rs: try_run"]}
{"id": "C73", "title": "The score shown is the score of the timetable", "statement": "The log line `Solution score: \u2026` shows the score of the very timetable that is printed, and no such line is written if none is printed. Outside greedy mode it is `(w, x)` with `w` exactly the worst preference given out, in greedy mode only `x`; `x` is a decimal number with five decimals that differs from the exact weighted sum of the preferences given out, divided by the weight of the greatest preference, by at most half a unit of the last decimal plus a relative error of (greatest preference + 4) / 2^23. Of two timetables the one that is at least as good never shows the worse score.", "quantifier": "every input, option record, session and interleaving; every finite floating point number", "why_tests_cant": "a numerical error bound over all inputs and all floating point values", "anchors": ["src/score.rs: Display", "src/util.rs: str_float", "src/main.rs: try_run", "src/scoring.rs: evaluate"]}
{"id": "C74", "title": "A choice has the qualities its arguments say", "statement": "choice(name, ...) with a new name makes a choice whose minimum, maximum, number of parts and optional flag are what the last argument about each of them says (integer or numeric string), and 1, 1, 1 and not optional if there is none; bounds(x, y) is the same as min(x), max(y), and the order of arguments about different things does not matter.", "quantifier": "every reader history, name and list of arguments", "why_tests_cant": "all argument lists and histories", "anchors": ["src/input/rhai_interface.rs: choice, register_interface, build_scope", "doc/src/Manual.md: Adding choices"]}
{"id": "C75", "title": "The integer program is the assignment problem", "statement": "The integer program that is handed to the MIP solver for a scheduling and a preference limit can always be built; its solutions are exactly the valid assignments within the limit, with the objective equal to the total cost (exactly, also after conversion to floating point), and the answer of the solver is read exactly, although it reports floating point numbers with a tolerance: a reported success yields a valid cheapest assignment, a failure without time limit means that there is none. So a program whose MIP solver is accurate behaves as the theorems about ideal flow backends say.", "quantifier": "every problem, scheduling, preference limit and solver history; every solver of integer programs", "why_tests_cant": "the programs and the answers are unbounded", "anchors": ["src/mip_flow.rs: MipFlow::solve", "src/assignment_solver.rs: solve_with_limit"]}
{"id": "C76", "title": "What the program announces is true", "statement": "For an accepted script the program announces the number of slots and choosers the script added and the number of choices (every part of a choice of several parts counted), the number of scheduling and assignment constraints, whether the critical set analysis is done, as the options say, and a preference bound below which no valid solution can stay; after the search it says that there is no solution exactly if it hands out no tables, and otherwise the score of the tables. A rejected script is not commented on.", "quantifier": "every script, option, outside world and search without panicking worker", "why_tests_cant": "scripts, inputs and schedules are unbounded", "anchors": ["src/main.rs: try_run", "src/critical_set_analysis.rs: preference_bound"]}
{"id": "C77", "title": "CSV files are read as they were written, and the program's tables are CSV files", "statement": "read_csv returns exactly the table a file was written from, if the file follows the usual rules (cells plain or quoted with doubled quotes, any line end, empty lines ignored, optional byte order mark) and all rows are equally long; files with rows of different lengths are rejected; no file makes it panic; readFile returns the text of the file unchanged. The tables the program writes can be read back with read_csv.", "quantifier": "every table, cell content, way of quoting, line end and ASCII separator; every file whatsoever", "why_tests_cant": "cell contents, quotings and files are unbounded", "anchors": ["src/input/rhai_interface.rs: read_file_csv, read_file_string, register_interface (read_csv, readFile)", "src/output_formatter.rs: scheduling_solution, assignment_solution", "doc/src/Manual.md: Reading from CSV files"]}
{"id": "C78", "title": "Given enough time the best timetable can be found", "statement": "Every scheduling search returns the first scheduling in its order of all that satisfy the scheduling rules and cover the critical sets; whatever is printed can be got to from such a first scheduling by moving single choices or exchanging slots within the rules. Because the searches are repeated with new random orders, for every input there is a random stream and a running time with which the best timetable is printed.", "quantifier": "every input, random stream, order of the choices and run", "why_tests_cant": "which schedulings can never be reached is not testable", "anchors": ["src/scheduling_solver.rs: get_choice_scramble, calculate_feasible_slots, solve_scheduling, next_scheduling", "src/hill_climbing_solver.rs: pick_neighbors, solve", "src/shotgun_solver.rs: iterate", "doc/src/Concept.md: Shotgun hill climbing"]}
{"id": "C79", "title": "The search goes through the preference levels as documented", "statement": "A scheduling search starts at the preference bound (at the greatest preference for one draw in ten) and tries to satisfy all critical sets of the current level; it goes to the next level only if the time limit of the level is over or no scheduling within the rules satisfies them, so that without time limits no timetable stays below the level the search ends at. The scheduling it returns satisfies all critical sets of that level.", "quantifier": "every input, random stream, clock and outcome of the critical set analysis", "why_tests_cant": "which schedulings exist at the levels given up is a statement about all schedulings", "anchors": ["src/scheduling_solver.rs: next_scheduling, solve_scheduling, satisfies_critical_sets", "src/input_data.rs: preference_after", "doc/src/Concept.md: Solving schedulings (critical set analysis)"]}
{"id": "C80", "title": "The search depth and the message shown while solving are true", "statement": "Every search depth a worker reports is the number of choices decided on at that moment; in a search it begins at 0 and changes by at most one at a time, and after a scheduling has been found it is the number of choices. The depth shown, for fewer than 65536 choices and threads and less than 2^24 of their product, is the mean of what the workers have reported last, written with one decimal and within 0.06 of it; it is never more than the greatest depth shown beside it, which is the number of choices, and it is exact if the mean is integral. The message says that there is no solution yet, and shows the depth, exactly as long as no solution with a finite score has been announced, and otherwise the best score; the counters are left out only if all are 0.", "quantifier": "every input, random stream and clock; every interleaving of reports of every number of workers", "why_tests_cant": "the reports come from all points of all searches in any interleaving", "anchors": ["src/scheduling_solver.rs: next_scheduling, solve_scheduling, publish_depth_progress", "src/threaded_solver.rs: start, progress", "src/status.rs: format_solver_message, format_solver_summary"]}
{"id": "C81", "title": "Names do not matter for the timetable", "statement": "If two scripts describe inputs that differ only in the names of slots, choices and choosers (same numbers, limits, parts, preferences, constraints and options), then the program can end in the same ways for both: the same errors, the message that there is no solution, or the tables of the same timetable, each written with its own names. The solver sessions are the same step by step: same random draws, candidates, scores and counters.", "quantifier": "every pair of such inputs, every option record, random stream, clock, interleaving and MIP backend", "why_tests_cant": "a relation between all runs on two inputs", "anchors": ["src/prepared_problem.rs: PreparedProblem::new", "src/scheduling_solver.rs", "src/assignment_solver.rs", "src/hill_climbing_solver.rs", "src/scoring.rs", "src/critical_set_analysis.rs", "src/output_formatter.rs"]}
{"id": "C82", "title": "An input is rejected only for the reason given", "statement": "A script that does not panic and does not fail itself is rejected with a message that is true: an object was created but not added, there is no choice or no chooser, the named chooser does not have one preference per choice, a constraint uses the named name that several objects match equally well, a part that the choice does not have, a negative number or a form that there is not, or two different slots are to have the same choices. If none of this is the case, the script is accepted.", "quantifier": "every script, options and reader history", "why_tests_cant": "the reasons are about all names, parts and constraints at once; acceptance is a statement about all scripts", "anchors": ["src/input/input_reader.rs: read_input", "src/input/input_builder.rs: build, build_preferences, build_constraints", "src/input/constraint_builder.rs: build, add_constraint, resolve_accessor, find_name", "src/input/fuzzy_match.rs: find"]}
{"id": "C83", "title": "The command line means what the manual says", "statement": "The command line is accepted exactly if it consists of the options of the manual, in a short or long spelling, with values attached, after an equals sign or as the next argument, short flags possibly combined, and no option twice except for input files; then the options are the documented defaults with exactly what was asked for, and the order does not matter except for that of the input files. Help and version are shown exactly if they are asked for and nothing before them is wrong; then the status is 0 and nothing is done. Everything else ends with status 2, before anything is read or written, and never with a panic. A line that a script's set_arguments also accepts means the same there.", "quantifier": "every list of arguments, number of cores and float parser", "why_tests_cant": "the argument lists are infinitely many and the options interact: combined flags, attached values and repeated options are combinations that example-based tests sample", "anchors": ["src/options.rs: Options, parse_time, default_thread_count", "src/main.rs: run", "src/input/rhai_interface.rs: set_arguments", "doc/src/Manual.md: Program options"]}
{"id": "C84", "title": "Options in the script are as good as options on the command line", "statement": "Arguments at the end of the command line can be moved into a call of set_arguments at the beginning of the script, except for input files: the program can end in exactly the same ways, with the same files written. Options never change which input a script describes, and what a script sets does not depend on the options it starts with. An input file given to set_arguments is accepted and has no effect.", "quantifier": "every command line, script, file system, random stream, clock, interleaving and MIP backend", "why_tests_cant": "an equivalence of two programs over all their runs", "anchors": ["src/input/rhai_interface.rs: set_arguments", "src/input/input_reader.rs: read_input, effective_options", "src/main.rs: run, try_run, read_input_string", "doc/src/Manual.md: set_arguments"]}
{"id": "C85", "title": "The search does not waste work", "statement": "For one scheduling at most 1 + log2(n) integer programs are solved, n being the number of preference levels from the preference bound on (one in greedy mode). A climb solves the assignment of its start once and then at most max-neighbors + 1 assignments for every better solution it finds, so it ends after a round without improvement. A worker solves at least one assignment for each of its iterations and at most one plus max-neighbors + 1 for each solution it has announced; in the summary shown at the end, the number of assignments is at least that of iterations and the number of programs at most 1 + log2(n) times that of assignments.", "quantifier": "every input, scheduling, solver history, random stream, clock, interleaving, MIP backend and option record", "why_tests_cant": "a bound on the work of unbounded runs", "anchors": ["src/assignment_solver.rs: solve_until, solve_with_limit", "src/hill_climbing_solver.rs: solve, pick_neighbors", "src/shotgun_solver.rs: iterate", "src/status.rs: format_solver_summary"]}
{"id": "C86", "title": "Only differences between preferences matter", "statement": "If every chooser raises all preferences by the same amount, the program accepts or refuses the input for the same reason, the same timetables are valid and everybody fares the same in each of them; and the timetable found is as good for whoever is worst off as without the change.", "quantifier": "every input and amount; every scheduling, solver history and exact backend", "why_tests_cant": "a relation between the runs on two inputs, for all inputs and amounts", "anchors": ["src/input/input_builder.rs: build_preferences, build_preference_levels", "src/assignment_solver.rs: solve_until", "doc/src/Concept.md: Preferences are mirrored"]}
{"id": "C87", "title": "Nobody can be made happier at nobody's expense", "statement": "In the timetable printed, the participants are distributed so that no other valid distribution over the same scheduling is better for everybody: none gives somebody fewer choices worse than some level and nobody more choices worse than any level.", "quantifier": "every accepted input, option set, random stream, schedule of the threads, moment of stopping and exact backend", "why_tests_cant": "Pareto optimality quantifies over all valid assignments of the scheduling that is printed", "anchors": ["src/assignment_solver.rs: solve_until, solve_with_limit, create_flow (cost of an edge)", "src/hill_climbing_solver.rs: solve", "src/options.rs: preference_exponent"]}
{"id": "C88", "title": "The preference exponent makes the result even", "statement": "With a preference exponent above 1, no other valid distribution of the participants over the printed scheduling is more even: the amounts by which the preferences exceed a level are not smaller in total for some level without being greater for another. In particular, no two places can be exchanged so that the worse off of the two gains at least what the other loses.", "quantifier": "every accepted input, option set, exponent, random stream, schedule of the threads, moment of stopping and exact backend", "why_tests_cant": "quantifies over all valid assignments of the printed scheduling and over all real exponents", "anchors": ["doc/src/Manual.md: Preference exponent", "src/assignment_solver.rs: create_flow (cost of an edge, cast to i64)", "src/options.rs: preference_exponent"]}
{"id": "C89", "title": "Asking for less never loses a timetable", "statement": "If limits of choices are loosened, choices made optional, constraints dropped or wishes changed, the input is still accepted and every timetable that was valid before is valid afterwards; the tables printed for the stricter input are those of a valid timetable of the looser one. Which timetables are valid does not depend on the wishes at all. If only limits are loosened, wishes are read as before: worst preference and cost of a timetable stay the same.", "quantifier": "every accepted input and every input that asks for less; for the program every option set, random stream, schedule of the threads, moment of stopping", "why_tests_cant": "relates the results of two inputs for all pairs of inputs and all timetables", "anchors": ["src/input/input_builder.rs: build_constraints, build_preferences", "src/input/constraint_builder.rs", "src/constraints.rs: reduce_and_optimize", "src/scoring.rs: is_feasible"]}
{"id": "C90", "title": "Nobody is privileged by their place in the list", "statement": "If the choosers are listed in another order, the input is accepted or rejected as before, everybody has the same preferences as before, and exactly the same timetables are valid, with the same worst preference and the same cost; only the rows are in another order. Constraints go on to mean the same persons.", "quantifier": "every input and every order of its choosers, every timetable", "why_tests_cant": "relates the results of two inputs for all inputs, all permutations and all timetables", "anchors": ["src/input/input_builder.rs: build, build_constraints", "src/input/constraint_builder.rs: resolve_accessor, find_name", "src/constraints.rs: reduce_and_optimize", "src/input/fuzzy_match.rs"]}
{"id": "C91", "title": "Constraints may be stated in any order", "statement": "If the constraints of an input are stated in another order, the input is accepted or rejected as before, choices, choosers and wishes are read as before, and exactly the same timetables are valid, with the same worst preference and cost. Repeating a constraint changes nothing either, unless it demands that somebody attends a choice: stated twice, such a demand keeps the choice from taking place.", "quantifier": "every input, every order of its constraints and every repetition of those that do not demand attendance; every timetable", "why_tests_cant": "relates the results of two inputs for all inputs, all permutations and all timetables", "anchors": ["src/input/input_builder.rs: build_constraints", "src/input/constraint_builder.rs: build", "src/constraints.rs: reduce_and_optimize, get_mandatory_critical_sets"]}
{"id": "C92", "title": "Choices may be listed in any order", "statement": "If the choices are listed in another order, with everybody's wishes in the same new order, the input is accepted or rejected as before, every part of a choice has the same name, limits and obligation under its new number, everybody has the same preferences as before, and exactly the same timetables are valid, with the same worst preference and the same cost; only the numbers of the choices are others. Constraints go on to mean the same choices and parts.", "quantifier": "every input and every order of its choices, including choices of several parts; every timetable", "why_tests_cant": "relates the results of two inputs for all inputs, all permutations and all timetables", "anchors": ["src/input/input_builder.rs: build, build_constraints, compile_choices", "src/input/constraint_builder.rs: resolve_accessor, find_name", "src/constraints.rs: reduce_and_optimize, get_dependent_choices", "src/input/fuzzy_match.rs"]}
{"id": "C93", "title": "Without choices of several parts, slots may be listed in any order", "statement": "If no choice has several parts and the slots are listed in another order, the input is accepted or rejected as before, choices, choosers and wishes are read as before, and exactly the same timetables are valid, with the same worst preference and the same cost; only the numbers of the slots, and so the columns of the tables, are others. With choices of several parts the order counts, because parts follow each other.", "quantifier": "every input without choices of several parts and every order of its slots; every timetable", "why_tests_cant": "relates the results of two inputs for all inputs, all permutations and all timetables", "anchors": ["src/input/input_builder.rs: build, build_constraints, compute_part_constraints", "src/input/constraint_builder.rs: resolve_accessor, find_name", "src/constraints.rs: reduce_and_optimize"]}
{"id": "C94", "title": "Offering more optional choices never loses a timetable", "statement": "If optional choices are added at the end of the list, with whatever wishes for them and so named that no constraint means another choice than before, the input is accepted as before, and the timetables in which the new choices do not take place are exactly those of before. If the wishes for the old choices are kept and no new wish is above the largest old one, these timetables also have the worst preference and the cost they had. The names matter: a new name can make a constraint that gives only the beginning of a name ambiguous.", "quantifier": "every accepted input, every list of further optional choices (with any number of parts) and wishes; every timetable", "why_tests_cant": "relates the results of two inputs for all inputs, all extensions and all timetables", "anchors": ["src/input/input_builder.rs: build, build_constraints, compile_choices", "src/input/constraint_builder.rs: resolve_accessor, find_name", "src/constraints.rs: reduce_and_optimize", "src/input/fuzzy_match.rs"]}
{"id": "C95", "title": "A constraint may be put in other words", "statement": "If the objects in constraints are called by other names that stand for them alone (an abbreviation for the full name, or the other way round), or the two sides of constraints are stated in the other order with the same sign between them, an input is accepted or rejected as before, choices, choosers, wishes and preference levels are read as before, and exactly the same timetables are valid, with the same worst preference and the same cost. (The sign is not mirrored by the program: 5 >= slot.size is read as slot.size >= 5.) If one side names nothing and the other is ambiguous, the order does matter for acceptance.", "quantifier": "every accepted input, every other wording of any of its constraints; every timetable", "why_tests_cant": "relates the results of two inputs for all inputs, all wordings and all timetables", "anchors": ["src/input/constraint_builder.rs: build, resolve_accessor, find_name, add_constraint", "src/constraints.rs: reduce_and_optimize", "src/input/fuzzy_match.rs", "src/input/input_builder.rs: build"]}
