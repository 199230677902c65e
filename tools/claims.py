claim("C01", "proved", ["Wassign.C01_finite_score_is_valid", "Wassign.C01_feasibility_exact", "Wassign.C01_valid_passes"],
      "Validity is Spec.Valid; f32 arithmetic of the minor score is an abstract function.")
claim("C02", "proved", ["Wassign.C02_scheduling_feasible_exact", "Wassign.C02_scheduling_feasible_returns"])
claim("C39", "proved", ["Wassign.C39_compare_swaps", "Wassign.C39_reflexive_total", "Wassign.C39_transitive",
      "Wassign.C39_invalid_last", "Wassign.C39_worst_preference_first", "Wassign.C39_mixed_modes_not_transitive"],
      "Within one mode as stated; C39_mixed_modes_not_transitive shows the restriction is needed.")
claim("C03", "proved", ["Wassign.C03_produced_schedulings_feasible"],
      "For every random engine, clock behaviour and critical-set supply.")
claim("C04", "partial", ["Wassign.C04_exhausted_means_none_partial", "Wassign.C04_false_means_none_partial", "Wassign.C04_can_miss"],
      "False in general: C04_can_miss is a feasible input on which the search gives up after its final check. Proved: the search never loses a scheduling by pruning, and the full claim when minima are at most 1 (or sum to at most the number of choosers) and no constraint relates a choice to itself.")
claim("C05", "proved", ["Wassign.C05_no_infinite_search", "Wassign.C05_iterations_bounded", "Wassign.C05_fuel_irrelevant", "Wassign.C05_search_returns"])
claim("C13", "proved", ["Wassign.C13_good_schedulings_cover", "Wassign.C13_partial_decisions_pass"])
claim("C14", "proved", ["Wassign.C14_simplification_lossless", "Wassign.C14_lossless_for_decisions"])
claim("C15", "partial", ["Wassign.C15_bound_is_lower_bound_partial", "Wassign.C15_bound_le_max", "Wassign.C15_bound_can_be_wrong", "Wassign.C15_program_bound_partial"],
      "False in general (C15_bound_can_be_wrong: no critical set at a level does not lower the bound). Proved when the minima of all choices fit into all slots but one.")
claim("C42", "proved", ["Wassign.C42_riffle_interleaves", "Wassign.C42_riffle_keeps_order", "Wassign.C42_shuffle_perm"])
claim("C43", "proved", ["Wassign.C43_next_in_range", "Wassign.C43_all_values_possible"])
claim("C44", "proved", ["Wassign.C44_derived_seeds_distinct", "Wassign.C44_worker_seeds_nodup", "Wassign.C44_workers_differ"])
claim("C45", "proved", ["Wassign.C45_groups_are_the_closure"], "Up to 2^31-1 choices, beyond which the code panics.")
claim("C27", "partial", ["Wassign.C27_written_constraints_enforced", "Wassign.C27_infeasible_is_unsatisfiable",
      "Wassign.C27_nothing_else_forbidden_partial", "Wassign.C27_forbids_too_much"],
      "Soundness is proved in full. The other direction is false in general (C27_forbids_too_much); proved for solutions in which every choice takes place and is attended, without repeated membership demands.")
claim("C28", "partial", ["Wassign.C28_order_does_not_matter", "Wassign.C28_repetition_does_not_matter_partial",
      "Wassign.C28_repetition_changes_meaning"],
      "Order: proved in full. Repetition: false for repeated membership demands (C28_repetition_changes_meaning), proved otherwise.")
claim("C51", "partial", ["Wassign.C51_double_negation", "Wassign.C51_negation_complements_partial",
      "Wassign.C51_both_hold_when_unscheduled"],
      "Double negation in full; complementation when the choices talked about take place, and it is false otherwise.")
claim("C31", "proved", ["Wassign.C31_lookup", "Wassign.C31_exact_name", "Wassign.C31_resolves_unique"])
claim("C30", "partial", ["Wassign.C30_accepted_sensible", "Wassign.C30_meaning_partial", "Wassign.C30_accepts_iff", "Wassign.C30_mirrored_order_wrong", "Wassign.C30_refused_though_documented"],
      "False for order comparisons with the number on the left (C30_mirrored_order_wrong); proved for every other expression the interface can build, over existing objects (C30_accepts_iff needs distinct names, the other two do not). Some comparisons of the manual are refused (C30_refused_though_documented, finding 34).")
claim("C24", "proved", ["Wassign.C24_parts_consecutive", "Wassign.C24_blocks_tile"])
claim("C25", "proved", ["Wassign.C25_mirrored_and_expanded", "Wassign.C25_final_preference"])
claim("C26", "partial", ["Wassign.C26_levels_partial", "Wassign.C26_levels_not_normalized"],
      "The levels are the distinct values as given (plus 0 and the maximum), not after mirroring: C26_levels_not_normalized shows the claim false as stated.")
claim("C29", "proved", ["Wassign.C29_shared_limits", "Wassign.C29_shared_preferences", "Wassign.C29_independent_unchanged"])
claim("C46", "proved", ["Wassign.C46_lookup_exact"])
claim("C48", "proved", ["Wassign.C48_well_formed", "Wassign.C48_written_enforced"])
W = "Wassign."
claim("C06", "proved", [W + n for n in ["C06_solved_assignments_valid", "C06_valid_within_limit", "C06_solution_accepted"]],
      "For every MIP backend that returns feasible points (the backend library itself is outside the model).")
claim("C07", "partial", [W + n for n in ["C07_cheapest_within_limit_partial", "C07_cheapest_if_nothing_optional", "C07_cheapest_partial", "C07_printed_cheapest_partial", "C07_not_cheapest"]],
      "False when scheduled choices are tied only through an unscheduled optional one (C07_not_cheapest); proved otherwise, for every backend returning optimal points.")
claim("C08", "partial", [W + n for n in ["C08_infeasible_means_none_partial", "C08_none_means_none_partial", "C08_none_although_one_exists"]],
      "False in the same corner as C07 (C08_none_although_one_exists); proved otherwise.")
claim("C09", "proved", [W + n for n in ["C09_search_finds_smallest", "C09_solver_search_ends"]])
claim("C10", "partial", [W + n for n in ["C10_least_worst_partial", "C10_least_level_partial", "C10_worst_not_least", "C10_printed_least_level_partial", "C10_printed_least_worst_partial"]],
      "For the solver and for what the program prints. False when the level list lacks normalized values (C10_worst_not_least, same cause as C26); proved when it contains them.")
claim("C11", "proved", [W + n for n in ["C11_state_describes_scheduling", "C11_same_as_fresh", "C11_update_never_fails"]])
claim("C12", "proved", [W + n for n in ["C12_conclusive_results_stored", "C12_same_scheduling_same_assignment", "C12_cache_holds_results", "C12_other_schedulings_unaffected", "C12_inconclusive_not_cached"]])
claim("C47", "proved", [W + n for n in ["C47_edge_keys_injective", "C47_node_keys_injective", "C47_network_node_keys_distinct", "C47_collision_beyond"]],
      "For chooser indices below 2147483646; C47_collision_beyond shows the bound matters.")
claim("C16", "proved", [W + n for n in ["C16_never_worse", "C16_invalid_iff", "C16_announcements_improve", "C16_climb_ends", "C16_real_solver"]])
claim("C17", "proved", [W + n for n in ["C17_keys_are_moves", "C17_moves_have_one_key"]])
claim("C18", "proved", [W + "C18_swap_permutes"])
claim("C19", "partial", [W + n for n in ["C19_neighbors_feasible_partial", "C19_excess_is_companion", "C19_moves_examined", "C19_swaps_tried", "C19_limit_exceeded"]],
      "Feasibility and the limits on the effort of one round are proved; the limit on the number of neighbours is exceeded in C19_limit_exceeded.")
claim("C20", "proved", [W + n for n in ["C20_best_of_all_iterations", "C20_recorded_is_valid", "C20_iterations_done", "C20_real_worker"]])
claim("C21", "proved", [W + n for n in ["C21_panic_reported", "C21_best_of_all_workers", "C21_invalid_iff"]],
      "Workers are interleaved arbitrarily; the construction of the workers is not part of the session model.")
claim("C22", "proved", [W + n for n in ["C22_report_is_best_so_far", "C22_never_worse", "C22_unknown_workers_ignored", "C22_final_report", "C22_assignments_counted", "C22_final_assignments", "C22_lps_announced", "C22_final_lps", "C22_program_lps"]],
      "Scores of one mode, as the scores of one problem are.")
claim("C23", "proved", [W + n for n in ["C23_at_most_current_iteration", "C23_cancelled_session_ends", "C23_any_stops_everyone", "C23_single_slot"]],
      "A relaxed atomic flag is modelled as a flag whose reads see the last write.")
claim("C32", "partial", [W + n for n in ["C32_fresh_name_partial", "C32_existing_matches", "ReadEx.C32_similar_name_is_not_fresh"]],
      "False as documented: a name occurring inside a registered name gives that object back (C32_similar_name_is_not_fresh); proved for names that do not occur in a registered name.")
claim("C33", "proved", [W + n for n in ["C33_names_unique", "C33_add_again", "C33_duplicate_rejected", "ReadEx.C33_late_rename_duplicates"]],
      "C33_late_rename_duplicates shows that the condition on renaming is needed.")
claim("C34", "proved", [W + "C34_accepted_inputs"])
claim("C35", "proved", [W + n for n in ["C35_independent_of_history", "ReadEx.C35_options_persist"]],
      "Options, unlike inputs, do persist (C35_options_persist).")
claim("C36", "proved", [W + n for n in ["C36_applies_all_in_order", "C36_failure_changes_nothing", "C36_unnamed_untouched"]])
claim("C37", "partial", [W + n for n in ["C37_components_sum", "C37_rejects_other_characters", "C37_no_silent_overflow_partial",
      "C37_release_overflow_accepted", "C37_trailing_digits_ignored"]],
      "Overflow is silently accepted in release builds (C37_release_overflow_accepted); the last part is proved for builds with overflow checks.")
claim("C38", "proved", [W + n for n in ["C38_range", "C38_slice", "C38_empty_cannot_be_sliced", "C38_rows"]])
claim("C50", "partial", [W + n for n in ["C50_integers_partial", "C50_large_integers_truncated", "C50_strings", "C50_bounds_strings", "C50_preferences"]],
      "False for integers beyond i32 (C50_large_integers_truncated); proved for all others, for all strings and for preferences.")
claim("C53", "proved", [W + "C53_failed_call_has_no_effect"])
claim("C54", "proved", [W + "C54_scripts_never_panic"],
      "Release builds (arithmetic wraps); scripts can only use references they were given.")
claim("C40", "partial", [W + n for n in ["C40_assignment_table", "C40_valid_solution", "C40_missing_reported", "C40_unscheduled_reported",
      "C40_readable", "C40_shown_names_partial", "C40_quotes_not_escaped", "C40_tilde_lost"]],
      "The table is proved in full. False parts: quotes in names are not escaped (C40_quotes_not_escaped) and a name that begins with `~` is printed without it (C40_tilde_lost).")
claim("C41", "proved", [W + n for n in ["C41_scheduling_table", "C41_missing_reported"]])
claim("C55", "proved", [W + n for n in ["C55_input_as_described", "C55_at_most_one"]])

claim("C49", "proved", [W + n for n in ["C49_build_never_panics", "C49_prepare_succeeds", "C49_no_worker_panics", "C49_read_never_panics", "C49_program_never_panics",
    "MainEx.C49_contradictory_limits", "MainEx.C49_negative_timeout", "MainEx.C49_huge_number", "MainEx.C49_large_number"]],
  "Manageability (Spec/Manageable.lean) is the stated condition: limits not contradictory, numbers within the integer types, critical set timeout not negative; "
  "the random generator is lawful and varied, the MIP backend returns solutions of its program. The four MainEx theorems are accepted scripts outside of these "
  "conditions on which the program panics (findings 12, 19, 20, 21).")
claim("C52", "proved", [W + n for n in ["C52_printed_timetable", "C52_no_other_outcome", "C52_errors", "MainEx.printed"]],
  "What a written constraint demands (Fulfils) is stated for names without clashes and leaves out mirrored order comparisons with a number on the left, which the code "
  "compiles to a different relation (finding 6, C30).")
claim("C56", "proved", [W + n for n in ["C56_why_workers_stop", "C56_cancelled_only_with_any", "C56_stops_when_exhausted", "C56_threads", "C56_critical_sets", "C56_greedy", "C56_options_reach_workers", "C56_any_ends_session"]])
claim("C57", "proved", [W + n for n in ["C57_interleaving_irrelevant", "C57_deterministic", "C57_same_output"]],
  "The random stream, clock and backend answers of each worker are a function of the worker's own progress (each worker has its own generator and solver).")
claim("C58", "partial", [W + n for n in ["C58_verdict_partial", "C58_goes_on_partial", "VerdictEx.C58_wrong_verdict"]],
  "For inputs without constraints relating a choice to itself and with small minima (each at most one, or all together at most the number of choosers): "
  "beyond that the search can give up although there are schedulings (C04_can_miss, finding 3).")
claim("C59", "partial", [W + n for n in ["C59_greedy_optimal_partial", "C59_optimal_partial", "C59_lexicographic_partial", "C59_session_ends"]],
  "Assumes that every valid solution gets a finite score (C60), and (for the worst preference itself, not for the levels) that every preference value is a level; "
  "without that the worst preference need not be least (C10_worst_not_least, finding 1).")

claim("C60", "partial", [W + n for n in ["C60_score_formula", "C60_every_solution_scored_partial", "C60_unscorable", "C60_unscorable_no_solution", "FloatEx.C60_hidden_solution"]],
  "f32 arithmetic is modelled exactly; finiteness is proved if the computed powers are finite, not negative, and at most 2^95 (ModeratePowers). It is false when a power overflows or "
  "the exponent is negative: then every solution is scored infinite and the program always says that there is none (C60_unscorable_no_solution, finding 22).")
claim("C61", "partial", [W + n for n in ["C61_objective", "C61_same_ranking_partial", "ObjectiveEx.C61_not_the_best_score"]],
  "False with the default exponent: the solver minimises the sum of (x+1)^e, the score adds up x^e (C61_not_the_best_score, finding 23). Proved for costs that are an affine function of the weights (exponent 1).")

claim("C62", "partial", [W + n for n in ["C62_order_partial", "ObjectiveEx.C62_too_close"]],
  "The weights are the computed powers (powf is a parameter), assumed finite, at most 2^95 and zero or at least one; the margin is a fraction of (maxPref + 4) / 2^23 of the larger sum. "
  "Closer sums can get the same score (C62_too_close).")

claim("C63", "proved", [W + n for n in ["C63_input_text", "C63_exit_zero", "C63_exit_other", "C63_delivered_timetable", "C63_files", "C63_standard_output", "C63_accepted_exits_zero", "C63_seed", "C63_seed_from_clock", "ProcEx.process", "ProcEx.C63_stale_files"]],
  "The Rhai parser is a parameter (text to interaction); clap is not modelled. Exit status 0 does not distinguish 'no solution' from success, and files of an earlier run stay (C63_stale_files, finding 24).")
claim("C64", "proved", [W + n for n in ["C64_reproducible", "ProcEx.process", "ProcEx.reproducible_hyps"]],
  "Both runs are given the same answers by the clock and the backend at the same points of each worker's own progress.")
claim("C65", "proved", [W + n for n in ["C65_no_lp_after_deadline", "C65_no_climbing_after_deadline", "C65_no_search_after_deadline", "C65_no_iteration_after_deadline", "C65_assignments_before_deadline", "C65_lps_before_deadline", "C65_session_ends_after_deadline", "DeadlineEx.overdue"]],
  "The clock is an arbitrary sequence of answers per worker (it need not be monotone); how long a single LP or a single critical set analysis takes is not bounded by the model.")
claim("C66", "proved", [W + n for n in ["C66_pieces", "C66_flushed", "C66_messages", "C66_failures", "areLines_unique"]],
  "Bytes are not decoded (the code replaces invalid UTF-8 line by line); env_logger is modelled as handing over each record, ended by a line feed, followed by a flush.")
claim("C67", "proved", [W + n for n in ["C67_summary_is_true", "C67_program_summary", "C67_panic", "C67_bar_position", "C67_remaining", "C67_bars_restored", "C67_bar_shown", "StatusEx.summary_hyps"]],
  "The announcements of the LPs of one assignment search are modelled as sent when it ends. The search depth shown while working is not modelled; drawing is left to indicatif.")

claim("C68", "partial", [W + n for n in ["C68_says_what_was_written", "C68_every_constraint_partial", "C68_printed_timetable_partial", "StatedEx.C68_rename_changes_meaning", "StatedEx.C68_rename_drops_constraint"]],
  "False for objects that are renamed after they were used in a constraint: the constraint keeps the old name (C68_rename_changes_meaning, finding 25). Order comparisons with the number on the left hold reversed (finding 6).")
claim("C69", "proved", [W + n for n in ["C69_local_optimum", "C69_every_move_considered", "C69_no_better_move", "C69_no_move_helps_the_worst_off", "ClimbEx.session"]],
  "The program-level theorems assume that the deadline strikes no climb (clocks never late), an exact MIP backend, finite scores (C60) and, as C08, that the move separates no linked choices; levels are those of C26, from the preference bound of C15 on. With fewer neighbours allowed than there are moves, only a random sample is examined (C69_local_optimum says exactly that).")
claim("C70", "proved", [W + n for n in ["C70_one_iteration_suffices", "ClimbEx.session", "ClimbEx.assignable"]],
  "Exact backend, clocks that do not strike, finite scores (C60), linked choices together (as C08).")

claim("C71", "proved", [W + n for n in ["C71_most_constrained_first", "C71_decided_in_order", "C71_emptier_slots_first", "OrderEx.tried"]],
      "Leaving an optional choice out may be tried at any point of the order of slots (it is mixed in at random), as in the code.")

claim("C72", "proved", [W + n for n in ["C72_best_of_the_climb", "C72_best_of_the_worker", "C72_best_of_the_session", "C72_nothing_better_seen", "AnswersEx.seen"]],
      "Every state of every session, any assignment solver and scheduling source with the stated shapes; for the program no assumption on the MIP backend is needed. A worker that panicked makes the program report an error instead (C21).")

claim("C73", "proved", [W + n for n in ["C73_number", "C73_score_shown", "C73_order", "DisplayEx.shown"]],
      "Manageable input (C49), powers that are moderate and zero or at least one (C60, C62) and a greatest preference of at most 2^23 - 4; how ties are rounded is left open.")

claim("C74", "proved", [W + n for n in ["C74_choice_means_its_arguments", "C74_bounds_is_min_max", "C74_order_irrelevant", "ArgsEx.written"]],
      "Numbers up to 2^31-1 (C50 for others); a name that does not occur in a registered one (C32).")

claim("C75", "proved", [W + n for n in ["C75_program_is_assignment_problem", "C75_success", "C75_failure", "C75_solve_never_panics", "C75_same_results", "C75_program_never_panics", "LpEx.ideal_accurate", "LpEx.ideal_quick", "Conf.solver_accurate", "Conf.solver_quick", "Conf.solver_decides", "Conf.replay_exact"]],
      "Assumed of the MIP solver (any): what it reports as optimal is optimal up to less than one half in every variable; for failures, that it decides. Costs with at most 53 significant bits (every cost is one unless it exceeds 64-bit integers). As C07/C08, not if choices are tied together only through an unscheduled one. NaN and infinities as reported values are not modelled.")
claim("C76", "partial", [W + n for n in ["C76_rejected", "C76_numbers", "C76_number_of_choices", "C76_constraints", "C76_bound_partial", "C76_verdict", "AnnounceEx.before", "AnnounceEx.two_parts"]],
      "Everything but the bound is proved in full. The bound is one only if the minima of all choices together fit into all slots but one (as C15, whose counterexample C15_bound_can_be_wrong applies) and the input is manageable. The test for the warning about the exponent is a parameter.")

claim("C77", "partial", [W + n for n in ["C77_read_back", "C77_ragged_rejected", "C77_byte_order_mark", "C77_any_file", "C77_whole_file", "C77_separators", "C77_own_tables_partial", "C77_own_tables_differ", "CsvEx.C77_comma_in_name", "CsvEx.C77_manual_example_rejected", "CsvEx.C77_separator_beyond_ascii"]],
      "Reading is proved in full (ASCII separators). The last sentence is false of the code (C77_own_tables_differ, C77_comma_in_name): the program writes a blank after each comma, so the tables are not CSV files in the usual sense. The csv crate is not part of /repo; its automaton is modelled from its documented behaviour.")

claim("C78", "partial", [W + n for n in ["C78_first_in_order", "C78_least_full_is_first", "C78_first_is_found", "C78_printed_is_attainable", "C78_restarts_use_any_orders", "C78_every_restart_counts", "C78_enough_time", "AttainEx.C78_best_can_be_out_of_reach"]],
      "The first two sentences are proved in full. The last one is false of the code (C78_best_can_be_out_of_reach): there are inputs with a timetable that gives everybody their favourites which the program cannot print, for any random numbers, options and running time. What is proved of it: for schedulings that come first in some order (nothing optional, critical sets covered), some random stream and running time make the program print a timetable that is as good for the worst-off as any of them allows (C78_enough_time).")

claim("C79", "partial", [W + n for n in ["C79_levels_partial", "C79_level_justified", "C79_last_choice_unchecked"]],
      "The last sentence is false of the code (C79_last_choice_unchecked): the critical sets are not tested after the last decision. Proved of it: sets without the choice decided on last are satisfied, the others in all slots but one. A level is also given up if the final check throws away a complete candidate (C04_can_miss); C79_level_justified is for inputs where it cannot (minima at most 1 or together at most the number of choosers, no constraint of a choice with itself).")

claim("C80", "proved", [W + n for n in ["C80_depth_published", "C80_depth_shown", "C80_program_depths", "C80_many_choices", "C80_message"]],
      "C80_depth_published is about the searches with a log of what they publish (proved equal to the searches of the model, with the decisions as a ghost); C80_depth_shown about any reports of depths in any order. Colours are not modelled. From 65536 choices on the greatest depth is shown as inf (C80_many_choices).")

claim("C81", "proved", [W + n for n in ["C81_same_sessions", "C81_names_do_not_matter"]],
      "Stated for what the reader makes of the two scripts (C55, C68 say what that is); names may differ arbitrarily. RenameEx is a pair of scripts with a run that prints tables.")

claim("C82", "proved", [W + n for n in ["C82_message_is_true", "C82_accepted_iff", "C82_plain_input_accepted", "C82_really_unsatisfiable"]],
      "Scripts that use only objects they have got (C54), release build, at most 2^30 parts and numbers of constraints up to 2^30 (ManageableRaw, C49). The message of a failed script is that of the script language and is abbreviated. A constraint about an unknown name is dropped without a message (Lost; C68 says when this cannot happen).")

claim("C83", "proved", [W + n for n in ["C83_accepted", "C83_help", "C83_refused", "C83_defaults", "C83_order", "C83_same_as_set_arguments", "C83_status", "C83_help_status", "C83_runs", "CliEx.C83_not_twice"]],
      "The source of clap is not in the repository: its rules for reading arguments are modelled from its documentation (Model/Cli.lean), the names, value parsers and defaults from options.rs. No panic: in builds where arithmetic wraps (C37). The float parser is a parameter; arguments that are not Unicode and abbreviations are not modelled.")

claim("C84", "proved", [W + n for n in ["C84_moved_into_script", "C84_input_same_for_all_options", "C84_script_settings", "C84_files_in_script_ignored", "CarriedEx.both"]],
      "CarriedEx.both is a program that reads two files, runs four workers and writes two files, with the prefix given either way.")

claim("C85", "proved", [W + n for n in ["C85_programs_per_scheduling", "C85_assignments_per_climb", "C85_assignments_per_worker", "C85_programs_per_worker", "C85_summary"]],
      "Counts are those of the program's own counters; C67 and C22 say that they are true.")

claim("C86", "partial", [W + n for n in ["C86_same_input", "C86_same_timetables", "C86_same_worst_partial", "C86_raising_changes_the_result"]],
      "All but the last part is proved in full. The last part is false of the code (C86_raising_changes_the_result), because the levels of the search are the preferences as given, not the mirrored ones (C26); it holds if both times every mirrored preference is a level (C86_same_worst_partial).")

claim("C87", "partial", [W + n for n in ["C87_not_improvable_partial", "C87_printed_not_improvable_partial", "C87_better_slot_by_slot", "C87_cost_increases", "C87_small_exponents_do_not_tell", "C88_printed_fair_if_nothing_optional"]],
      "Full for inputs without optional choices and exponents of at least 1 with exact powers (C88_printed_fair_if_nothing_optional). Missing: schedulings that separate choices tied together (as C07), and exponents below 1, where the cost does not tell a perfect choice from the next best because the fraction is cut off (C87_small_exponents_do_not_tell).")

claim("C88", "partial", [W + n for n in ["C88_not_more_even_partial", "C88_printed_not_more_even_partial", "C88_exchange_is_more_even", "C88_cost_accelerates", "C88_printed_fair_if_nothing_optional", "C88_uneven_with_exponent_between"]],
      "Full for inputs without optional choices and exponents of at least 2 with exact powers (C88_printed_fair_if_nothing_optional). False of the code for exponents between 1 and 2 (C88_uneven_with_exponent_between: 1.1), because the fraction is cut off; otherwise missing as C07.")

claim("C89", "proved", [W + n for n in ["C89_everything_still_allowed", "C89_wishes_do_not_decide", "C89_limits_keep_wishes", "C89_printed_still_allowed", "C89_dropping_changes_wishes"]],
      "C89_dropping_changes_wishes shows why the last part is about limits only: without a constraint the wishes may be read differently. C89_no_solution_for_stricter_partial combines C89 with the verdict of C58, for the inputs C58 is proved for.")

claim("C90", "proved", [W + n for n in ["C90_order_of_choosers", "C90_rejected_in_any_order", "C90_printed_in_any_order"]],
      "Which of the equally good timetables is found may depend on the order (random numbers, ties in the backend); the property is about what is valid and how good it is.")
claim("C91", "proved", [W + n for n in ["C91_order_of_statements", "C91_rejected_in_any_order", "C91_permuted", "C91_repeated", "C91_attendance_demanded_twice", "C91_printed_in_any_order"]],
      "C91_printed_in_any_order is about the program. C28 says the same of the list of constraints. C91_attendance_demanded_twice: a demand of attendance stated twice forbids the choice (finding of C28).")
claim("C92", "proved", [W + n for n in ["C92_order_of_choices", "C92_counterpart", "C92_rejected_in_any_order", "C92_printed_in_any_order"]],
      "The place of each part in the two orders is given by Spec.PartsMoved. Which of the equally good timetables is found may depend on the order, as in C90.")
claim("C93", "proved", [W + n for n in ["C93_order_of_slots", "C93_counterpart", "C93_rejected_in_any_order", "C93_parts_need_the_order", "C93_printed_in_any_order"]],
      "C93_parts_need_the_order shows that the condition is needed. An input without slots gets one generated slot; there is nothing to reorder.")
claim("C94", "proved", [W + n for n in ["C94_offering_more", "C94_as_good_as_before", "C94_without_the_new", "C94_names_in_the_way", "C94_printed_still_valid"]],
      "The condition on names is Spec.OffersMore.meant (the best matches of every name of a choice in a constraint stay the same); C94_names_in_the_way shows that it is needed. Together with C89 (making choices optional) this covers larger programmes in general.")
claim("C95", "proved", [W + n for n in ["C95_in_other_words", "C95_rejected_in_any_words", "C95_full_name", "C95_turned_round", "C95_unknown_and_ambiguous", "C95_printed_in_any_words"]],
      "Spec.SameThing and Spec.Reworded say what other words are. For comparisons of a slot's size with a number the property is about stating the sides in the other order with the same sign, as the code does not mirror the sign (DESIGN finding 6). C95_unknown_and_ambiguous: why names must stand for one object each. C95_no_solution_in_any_words_partial combines C95 with the verdict of C58, for the inputs C58 is proved for.")
