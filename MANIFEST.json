{
 "claims": [
  {
   "property": "C01",
   "status": "proved",
   "theorems": [
    "Wassign.C01_finite_score_is_valid",
    "Wassign.C01_feasibility_exact",
    "Wassign.C01_valid_passes"
   ],
   "note": "Validity is Spec.Valid; f32 arithmetic of the minor score is an abstract function."
  },
  {
   "property": "C02",
   "status": "proved",
   "theorems": [
    "Wassign.C02_scheduling_feasible_exact",
    "Wassign.C02_scheduling_feasible_returns"
   ],
   "note": ""
  },
  {
   "property": "C03",
   "status": "proved",
   "theorems": [
    "Wassign.C03_produced_schedulings_feasible"
   ],
   "note": "For every random engine, clock behaviour and critical-set supply."
  },
  {
   "property": "C04",
   "status": "partial",
   "theorems": [
    "Wassign.C04_exhausted_means_none_partial",
    "Wassign.C04_false_means_none_partial",
    "Wassign.C04_can_miss"
   ],
   "note": "False in general: C04_can_miss is a feasible input on which the search gives up after its final check. Proved: the search never loses a scheduling by pruning, and the full claim when minima are at most 1 (or sum to at most the number of choosers) and no constraint relates a choice to itself."
  },
  {
   "property": "C05",
   "status": "proved",
   "theorems": [
    "Wassign.C05_no_infinite_search",
    "Wassign.C05_iterations_bounded",
    "Wassign.C05_fuel_irrelevant",
    "Wassign.C05_search_returns"
   ],
   "note": ""
  },
  {
   "property": "C06",
   "status": "proved",
   "theorems": [
    "Wassign.C06_solved_assignments_valid",
    "Wassign.C06_valid_within_limit",
    "Wassign.C06_solution_accepted"
   ],
   "note": "For every MIP backend that returns feasible points (the backend library itself is outside the model)."
  },
  {
   "property": "C07",
   "status": "partial",
   "theorems": [
    "Wassign.C07_cheapest_within_limit_partial",
    "Wassign.C07_cheapest_if_nothing_optional",
    "Wassign.C07_cheapest_partial",
    "Wassign.C07_printed_cheapest_partial",
    "Wassign.C07_not_cheapest"
   ],
   "note": "False when scheduled choices are tied only through an unscheduled optional one (C07_not_cheapest); proved otherwise, for every backend returning optimal points."
  },
  {
   "property": "C08",
   "status": "partial",
   "theorems": [
    "Wassign.C08_infeasible_means_none_partial",
    "Wassign.C08_none_means_none_partial",
    "Wassign.C08_none_although_one_exists"
   ],
   "note": "False in the same corner as C07 (C08_none_although_one_exists); proved otherwise."
  },
  {
   "property": "C09",
   "status": "proved",
   "theorems": [
    "Wassign.C09_search_finds_smallest",
    "Wassign.C09_solver_search_ends"
   ],
   "note": ""
  },
  {
   "property": "C10",
   "status": "partial",
   "theorems": [
    "Wassign.C10_least_worst_partial",
    "Wassign.C10_least_level_partial",
    "Wassign.C10_worst_not_least",
    "Wassign.C10_printed_least_level_partial",
    "Wassign.C10_printed_least_worst_partial"
   ],
   "note": "For the solver and for what the program prints. False when the level list lacks normalized values (C10_worst_not_least, same cause as C26); proved when it contains them."
  },
  {
   "property": "C11",
   "status": "proved",
   "theorems": [
    "Wassign.C11_state_describes_scheduling",
    "Wassign.C11_same_as_fresh",
    "Wassign.C11_update_never_fails"
   ],
   "note": ""
  },
  {
   "property": "C12",
   "status": "proved",
   "theorems": [
    "Wassign.C12_conclusive_results_stored",
    "Wassign.C12_same_scheduling_same_assignment",
    "Wassign.C12_cache_holds_results",
    "Wassign.C12_other_schedulings_unaffected",
    "Wassign.C12_inconclusive_not_cached"
   ],
   "note": ""
  },
  {
   "property": "C13",
   "status": "proved",
   "theorems": [
    "Wassign.C13_good_schedulings_cover",
    "Wassign.C13_partial_decisions_pass"
   ],
   "note": ""
  },
  {
   "property": "C14",
   "status": "proved",
   "theorems": [
    "Wassign.C14_simplification_lossless",
    "Wassign.C14_lossless_for_decisions"
   ],
   "note": ""
  },
  {
   "property": "C15",
   "status": "partial",
   "theorems": [
    "Wassign.C15_bound_is_lower_bound_partial",
    "Wassign.C15_bound_le_max",
    "Wassign.C15_bound_can_be_wrong",
    "Wassign.C15_program_bound_partial"
   ],
   "note": "False in general (C15_bound_can_be_wrong: no critical set at a level does not lower the bound). Proved when the minima of all choices fit into all slots but one."
  },
  {
   "property": "C16",
   "status": "proved",
   "theorems": [
    "Wassign.C16_never_worse",
    "Wassign.C16_invalid_iff",
    "Wassign.C16_announcements_improve",
    "Wassign.C16_climb_ends",
    "Wassign.C16_real_solver"
   ],
   "note": ""
  },
  {
   "property": "C17",
   "status": "proved",
   "theorems": [
    "Wassign.C17_keys_are_moves",
    "Wassign.C17_moves_have_one_key"
   ],
   "note": ""
  },
  {
   "property": "C18",
   "status": "proved",
   "theorems": [
    "Wassign.C18_swap_permutes"
   ],
   "note": ""
  },
  {
   "property": "C19",
   "status": "partial",
   "theorems": [
    "Wassign.C19_neighbors_feasible_partial",
    "Wassign.C19_excess_is_companion",
    "Wassign.C19_moves_examined",
    "Wassign.C19_swaps_tried",
    "Wassign.C19_limit_exceeded"
   ],
   "note": "Feasibility and the limits on the effort of one round are proved; the limit on the number of neighbours is exceeded in C19_limit_exceeded."
  },
  {
   "property": "C20",
   "status": "proved",
   "theorems": [
    "Wassign.C20_best_of_all_iterations",
    "Wassign.C20_recorded_is_valid",
    "Wassign.C20_iterations_done",
    "Wassign.C20_real_worker"
   ],
   "note": ""
  },
  {
   "property": "C21",
   "status": "proved",
   "theorems": [
    "Wassign.C21_panic_reported",
    "Wassign.C21_best_of_all_workers",
    "Wassign.C21_invalid_iff"
   ],
   "note": "Workers are interleaved arbitrarily; the construction of the workers is not part of the session model."
  },
  {
   "property": "C22",
   "status": "proved",
   "theorems": [
    "Wassign.C22_report_is_best_so_far",
    "Wassign.C22_never_worse",
    "Wassign.C22_unknown_workers_ignored",
    "Wassign.C22_final_report",
    "Wassign.C22_assignments_counted",
    "Wassign.C22_final_assignments",
    "Wassign.C22_lps_announced",
    "Wassign.C22_final_lps",
    "Wassign.C22_program_lps"
   ],
   "note": "Scores of one mode, as the scores of one problem are."
  },
  {
   "property": "C23",
   "status": "proved",
   "theorems": [
    "Wassign.C23_at_most_current_iteration",
    "Wassign.C23_cancelled_session_ends",
    "Wassign.C23_any_stops_everyone",
    "Wassign.C23_single_slot"
   ],
   "note": "A relaxed atomic flag is modelled as a flag whose reads see the last write."
  },
  {
   "property": "C24",
   "status": "proved",
   "theorems": [
    "Wassign.C24_parts_consecutive",
    "Wassign.C24_blocks_tile"
   ],
   "note": ""
  },
  {
   "property": "C25",
   "status": "proved",
   "theorems": [
    "Wassign.C25_mirrored_and_expanded",
    "Wassign.C25_final_preference"
   ],
   "note": ""
  },
  {
   "property": "C26",
   "status": "partial",
   "theorems": [
    "Wassign.C26_levels_partial",
    "Wassign.C26_levels_not_normalized"
   ],
   "note": "The levels are the distinct values as given (plus 0 and the maximum), not after mirroring: C26_levels_not_normalized shows the claim false as stated."
  },
  {
   "property": "C27",
   "status": "partial",
   "theorems": [
    "Wassign.C27_written_constraints_enforced",
    "Wassign.C27_infeasible_is_unsatisfiable",
    "Wassign.C27_nothing_else_forbidden_partial",
    "Wassign.C27_forbids_too_much"
   ],
   "note": "Soundness is proved in full. The other direction is false in general (C27_forbids_too_much); proved for solutions in which every choice takes place and is attended, without repeated membership demands."
  },
  {
   "property": "C28",
   "status": "partial",
   "theorems": [
    "Wassign.C28_order_does_not_matter",
    "Wassign.C28_repetition_does_not_matter_partial",
    "Wassign.C28_repetition_changes_meaning"
   ],
   "note": "Order: proved in full. Repetition: false for repeated membership demands (C28_repetition_changes_meaning), proved otherwise."
  },
  {
   "property": "C29",
   "status": "proved",
   "theorems": [
    "Wassign.C29_shared_limits",
    "Wassign.C29_shared_preferences",
    "Wassign.C29_independent_unchanged"
   ],
   "note": ""
  },
  {
   "property": "C30",
   "status": "partial",
   "theorems": [
    "Wassign.C30_accepted_sensible",
    "Wassign.C30_meaning_partial",
    "Wassign.C30_accepts_iff",
    "Wassign.C30_mirrored_order_wrong",
    "Wassign.C30_refused_though_documented"
   ],
   "note": "False for order comparisons with the number on the left (C30_mirrored_order_wrong); proved for every other expression the interface can build, over existing objects (C30_accepts_iff needs distinct names, the other two do not). Some comparisons of the manual are refused (C30_refused_though_documented, finding 34)."
  },
  {
   "property": "C31",
   "status": "proved",
   "theorems": [
    "Wassign.C31_lookup",
    "Wassign.C31_exact_name",
    "Wassign.C31_resolves_unique"
   ],
   "note": ""
  },
  {
   "property": "C32",
   "status": "partial",
   "theorems": [
    "Wassign.C32_fresh_name_partial",
    "Wassign.C32_existing_matches",
    "Wassign.ReadEx.C32_similar_name_is_not_fresh"
   ],
   "note": "False as documented: a name occurring inside a registered name gives that object back (C32_similar_name_is_not_fresh); proved for names that do not occur in a registered name."
  },
  {
   "property": "C33",
   "status": "proved",
   "theorems": [
    "Wassign.C33_names_unique",
    "Wassign.C33_add_again",
    "Wassign.C33_duplicate_rejected",
    "Wassign.ReadEx.C33_late_rename_duplicates"
   ],
   "note": "C33_late_rename_duplicates shows that the condition on renaming is needed."
  },
  {
   "property": "C34",
   "status": "proved",
   "theorems": [
    "Wassign.C34_accepted_inputs"
   ],
   "note": ""
  },
  {
   "property": "C35",
   "status": "proved",
   "theorems": [
    "Wassign.C35_independent_of_history",
    "Wassign.ReadEx.C35_options_persist"
   ],
   "note": "Options, unlike inputs, do persist (C35_options_persist)."
  },
  {
   "property": "C36",
   "status": "proved",
   "theorems": [
    "Wassign.C36_applies_all_in_order",
    "Wassign.C36_failure_changes_nothing",
    "Wassign.C36_unnamed_untouched"
   ],
   "note": ""
  },
  {
   "property": "C37",
   "status": "partial",
   "theorems": [
    "Wassign.C37_components_sum",
    "Wassign.C37_rejects_other_characters",
    "Wassign.C37_no_silent_overflow_partial",
    "Wassign.C37_release_overflow_accepted",
    "Wassign.C37_trailing_digits_ignored"
   ],
   "note": "Overflow is silently accepted in release builds (C37_release_overflow_accepted); the last part is proved for builds with overflow checks."
  },
  {
   "property": "C38",
   "status": "proved",
   "theorems": [
    "Wassign.C38_range",
    "Wassign.C38_slice",
    "Wassign.C38_empty_cannot_be_sliced",
    "Wassign.C38_rows"
   ],
   "note": ""
  },
  {
   "property": "C39",
   "status": "proved",
   "theorems": [
    "Wassign.C39_compare_swaps",
    "Wassign.C39_reflexive_total",
    "Wassign.C39_transitive",
    "Wassign.C39_invalid_last",
    "Wassign.C39_worst_preference_first",
    "Wassign.C39_mixed_modes_not_transitive"
   ],
   "note": "Within one mode as stated; C39_mixed_modes_not_transitive shows the restriction is needed."
  },
  {
   "property": "C40",
   "status": "partial",
   "theorems": [
    "Wassign.C40_assignment_table",
    "Wassign.C40_valid_solution",
    "Wassign.C40_missing_reported",
    "Wassign.C40_unscheduled_reported",
    "Wassign.C40_readable",
    "Wassign.C40_shown_names_partial",
    "Wassign.C40_quotes_not_escaped",
    "Wassign.C40_tilde_lost"
   ],
   "note": "The table is proved in full. False parts: quotes in names are not escaped (C40_quotes_not_escaped) and a name that begins with `~` is printed without it (C40_tilde_lost)."
  },
  {
   "property": "C41",
   "status": "proved",
   "theorems": [
    "Wassign.C41_scheduling_table",
    "Wassign.C41_missing_reported"
   ],
   "note": ""
  },
  {
   "property": "C42",
   "status": "proved",
   "theorems": [
    "Wassign.C42_riffle_interleaves",
    "Wassign.C42_riffle_keeps_order",
    "Wassign.C42_shuffle_perm"
   ],
   "note": ""
  },
  {
   "property": "C43",
   "status": "proved",
   "theorems": [
    "Wassign.C43_next_in_range",
    "Wassign.C43_all_values_possible"
   ],
   "note": ""
  },
  {
   "property": "C44",
   "status": "proved",
   "theorems": [
    "Wassign.C44_derived_seeds_distinct",
    "Wassign.C44_worker_seeds_nodup",
    "Wassign.C44_workers_differ"
   ],
   "note": ""
  },
  {
   "property": "C45",
   "status": "proved",
   "theorems": [
    "Wassign.C45_groups_are_the_closure"
   ],
   "note": "Up to 2^31-1 choices, beyond which the code panics."
  },
  {
   "property": "C46",
   "status": "proved",
   "theorems": [
    "Wassign.C46_lookup_exact"
   ],
   "note": ""
  },
  {
   "property": "C47",
   "status": "proved",
   "theorems": [
    "Wassign.C47_edge_keys_injective",
    "Wassign.C47_node_keys_injective",
    "Wassign.C47_network_node_keys_distinct",
    "Wassign.C47_collision_beyond"
   ],
   "note": "For chooser indices below 2147483646; C47_collision_beyond shows the bound matters."
  },
  {
   "property": "C48",
   "status": "proved",
   "theorems": [
    "Wassign.C48_well_formed",
    "Wassign.C48_written_enforced"
   ],
   "note": ""
  },
  {
   "property": "C49",
   "status": "proved",
   "theorems": [
    "Wassign.C49_build_never_panics",
    "Wassign.C49_prepare_succeeds",
    "Wassign.C49_no_worker_panics",
    "Wassign.C49_read_never_panics",
    "Wassign.C49_program_never_panics",
    "Wassign.MainEx.C49_contradictory_limits",
    "Wassign.MainEx.C49_negative_timeout",
    "Wassign.MainEx.C49_huge_number",
    "Wassign.MainEx.C49_large_number"
   ],
   "note": "Manageability (Spec/Manageable.lean) is the stated condition: limits not contradictory, numbers within the integer types, critical set timeout not negative; the random generator is lawful and varied, the MIP backend returns solutions of its program. The four MainEx theorems are accepted scripts outside of these conditions on which the program panics (findings 12, 19, 20, 21)."
  },
  {
   "property": "C50",
   "status": "partial",
   "theorems": [
    "Wassign.C50_integers_partial",
    "Wassign.C50_large_integers_truncated",
    "Wassign.C50_strings",
    "Wassign.C50_bounds_strings",
    "Wassign.C50_preferences"
   ],
   "note": "False for integers beyond i32 (C50_large_integers_truncated); proved for all others, for all strings and for preferences."
  },
  {
   "property": "C51",
   "status": "partial",
   "theorems": [
    "Wassign.C51_double_negation",
    "Wassign.C51_negation_complements_partial",
    "Wassign.C51_both_hold_when_unscheduled"
   ],
   "note": "Double negation in full; complementation when the choices talked about take place, and it is false otherwise."
  },
  {
   "property": "C52",
   "status": "proved",
   "theorems": [
    "Wassign.C52_printed_timetable",
    "Wassign.C52_no_other_outcome",
    "Wassign.C52_errors",
    "Wassign.MainEx.printed"
   ],
   "note": "What a written constraint demands (Fulfils) is stated for names without clashes and leaves out mirrored order comparisons with a number on the left, which the code compiles to a different relation (finding 6, C30)."
  },
  {
   "property": "C53",
   "status": "proved",
   "theorems": [
    "Wassign.C53_failed_call_has_no_effect"
   ],
   "note": ""
  },
  {
   "property": "C54",
   "status": "proved",
   "theorems": [
    "Wassign.C54_scripts_never_panic"
   ],
   "note": "Release builds (arithmetic wraps); scripts can only use references they were given."
  },
  {
   "property": "C55",
   "status": "proved",
   "theorems": [
    "Wassign.C55_input_as_described",
    "Wassign.C55_at_most_one"
   ],
   "note": ""
  },
  {
   "property": "C56",
   "status": "proved",
   "theorems": [
    "Wassign.C56_why_workers_stop",
    "Wassign.C56_cancelled_only_with_any",
    "Wassign.C56_stops_when_exhausted",
    "Wassign.C56_threads",
    "Wassign.C56_critical_sets",
    "Wassign.C56_greedy",
    "Wassign.C56_options_reach_workers",
    "Wassign.C56_any_ends_session"
   ],
   "note": ""
  },
  {
   "property": "C57",
   "status": "proved",
   "theorems": [
    "Wassign.C57_interleaving_irrelevant",
    "Wassign.C57_deterministic",
    "Wassign.C57_same_output"
   ],
   "note": "The random stream, clock and backend answers of each worker are a function of the worker's own progress (each worker has its own generator and solver)."
  },
  {
   "property": "C58",
   "status": "partial",
   "theorems": [
    "Wassign.C58_verdict_partial",
    "Wassign.C58_goes_on_partial",
    "Wassign.VerdictEx.C58_wrong_verdict"
   ],
   "note": "For inputs without constraints relating a choice to itself and with small minima (each at most one, or all together at most the number of choosers): beyond that the search can give up although there are schedulings (C04_can_miss, finding 3)."
  },
  {
   "property": "C59",
   "status": "partial",
   "theorems": [
    "Wassign.C59_greedy_optimal_partial",
    "Wassign.C59_optimal_partial",
    "Wassign.C59_lexicographic_partial",
    "Wassign.C59_session_ends"
   ],
   "note": "Assumes that every valid solution gets a finite score (C60), and (for the worst preference itself, not for the levels) that every preference value is a level; without that the worst preference need not be least (C10_worst_not_least, finding 1)."
  },
  {
   "property": "C60",
   "status": "partial",
   "theorems": [
    "Wassign.C60_score_formula",
    "Wassign.C60_every_solution_scored_partial",
    "Wassign.C60_unscorable",
    "Wassign.C60_unscorable_no_solution",
    "Wassign.FloatEx.C60_hidden_solution"
   ],
   "note": "f32 arithmetic is modelled exactly; finiteness is proved if the computed powers are finite, not negative, and at most 2^95 (ModeratePowers). It is false when a power overflows or the exponent is negative: then every solution is scored infinite and the program always says that there is none (C60_unscorable_no_solution, finding 22)."
  },
  {
   "property": "C61",
   "status": "partial",
   "theorems": [
    "Wassign.C61_objective",
    "Wassign.C61_same_ranking_partial",
    "Wassign.ObjectiveEx.C61_not_the_best_score"
   ],
   "note": "False with the default exponent: the solver minimises the sum of (x+1)^e, the score adds up x^e (C61_not_the_best_score, finding 23). Proved for costs that are an affine function of the weights (exponent 1)."
  },
  {
   "property": "C62",
   "status": "partial",
   "theorems": [
    "Wassign.C62_order_partial",
    "Wassign.ObjectiveEx.C62_too_close"
   ],
   "note": "The weights are the computed powers (powf is a parameter), assumed finite, at most 2^95 and zero or at least one; the margin is a fraction of (maxPref + 4) / 2^23 of the larger sum. Closer sums can get the same score (C62_too_close)."
  },
  {
   "property": "C63",
   "status": "proved",
   "theorems": [
    "Wassign.C63_input_text",
    "Wassign.C63_exit_zero",
    "Wassign.C63_exit_other",
    "Wassign.C63_delivered_timetable",
    "Wassign.C63_files",
    "Wassign.C63_standard_output",
    "Wassign.C63_accepted_exits_zero",
    "Wassign.C63_seed",
    "Wassign.C63_seed_from_clock",
    "Wassign.ProcEx.process",
    "Wassign.ProcEx.C63_stale_files"
   ],
   "note": "The Rhai parser is a parameter (text to interaction); clap is not modelled. Exit status 0 does not distinguish 'no solution' from success, and files of an earlier run stay (C63_stale_files, finding 24)."
  },
  {
   "property": "C64",
   "status": "proved",
   "theorems": [
    "Wassign.C64_reproducible",
    "Wassign.ProcEx.process",
    "Wassign.ProcEx.reproducible_hyps"
   ],
   "note": "Both runs are given the same answers by the clock and the backend at the same points of each worker's own progress."
  },
  {
   "property": "C65",
   "status": "proved",
   "theorems": [
    "Wassign.C65_no_lp_after_deadline",
    "Wassign.C65_no_climbing_after_deadline",
    "Wassign.C65_no_search_after_deadline",
    "Wassign.C65_no_iteration_after_deadline",
    "Wassign.C65_assignments_before_deadline",
    "Wassign.C65_lps_before_deadline",
    "Wassign.C65_session_ends_after_deadline",
    "Wassign.DeadlineEx.overdue"
   ],
   "note": "The clock is an arbitrary sequence of answers per worker (it need not be monotone); how long a single LP or a single critical set analysis takes is not bounded by the model."
  },
  {
   "property": "C66",
   "status": "proved",
   "theorems": [
    "Wassign.C66_pieces",
    "Wassign.C66_flushed",
    "Wassign.C66_messages",
    "Wassign.C66_failures",
    "Wassign.areLines_unique"
   ],
   "note": "Bytes are not decoded (the code replaces invalid UTF-8 line by line); env_logger is modelled as handing over each record, ended by a line feed, followed by a flush."
  },
  {
   "property": "C67",
   "status": "proved",
   "theorems": [
    "Wassign.C67_summary_is_true",
    "Wassign.C67_program_summary",
    "Wassign.C67_panic",
    "Wassign.C67_bar_position",
    "Wassign.C67_remaining",
    "Wassign.C67_bars_restored",
    "Wassign.C67_bar_shown",
    "Wassign.StatusEx.summary_hyps"
   ],
   "note": "The announcements of the LPs of one assignment search are modelled as sent when it ends. The search depth shown while working is not modelled; drawing is left to indicatif."
  },
  {
   "property": "C68",
   "status": "partial",
   "theorems": [
    "Wassign.C68_says_what_was_written",
    "Wassign.C68_every_constraint_partial",
    "Wassign.C68_printed_timetable_partial",
    "Wassign.StatedEx.C68_rename_changes_meaning",
    "Wassign.StatedEx.C68_rename_drops_constraint"
   ],
   "note": "False for objects that are renamed after they were used in a constraint: the constraint keeps the old name (C68_rename_changes_meaning, finding 25). Order comparisons with the number on the left hold reversed (finding 6)."
  },
  {
   "property": "C69",
   "status": "proved",
   "theorems": [
    "Wassign.C69_local_optimum",
    "Wassign.C69_every_move_considered",
    "Wassign.C69_no_better_move",
    "Wassign.C69_no_move_helps_the_worst_off",
    "Wassign.ClimbEx.session"
   ],
   "note": "The program-level theorems assume that the deadline strikes no climb (clocks never late), an exact MIP backend, finite scores (C60) and, as C08, that the move separates no linked choices; levels are those of C26, from the preference bound of C15 on. With fewer neighbours allowed than there are moves, only a random sample is examined (C69_local_optimum says exactly that)."
  },
  {
   "property": "C70",
   "status": "proved",
   "theorems": [
    "Wassign.C70_one_iteration_suffices",
    "Wassign.ClimbEx.session",
    "Wassign.ClimbEx.assignable"
   ],
   "note": "Exact backend, clocks that do not strike, finite scores (C60), linked choices together (as C08)."
  },
  {
   "property": "C71",
   "status": "proved",
   "theorems": [
    "Wassign.C71_most_constrained_first",
    "Wassign.C71_decided_in_order",
    "Wassign.C71_emptier_slots_first",
    "Wassign.OrderEx.tried"
   ],
   "note": "Leaving an optional choice out may be tried at any point of the order of slots (it is mixed in at random), as in the code."
  },
  {
   "property": "C72",
   "status": "proved",
   "theorems": [
    "Wassign.C72_best_of_the_climb",
    "Wassign.C72_best_of_the_worker",
    "Wassign.C72_best_of_the_session",
    "Wassign.C72_nothing_better_seen",
    "Wassign.AnswersEx.seen"
   ],
   "note": "Every state of every session, any assignment solver and scheduling source with the stated shapes; for the program no assumption on the MIP backend is needed. A worker that panicked makes the program report an error instead (C21)."
  },
  {
   "property": "C73",
   "status": "proved",
   "theorems": [
    "Wassign.C73_number",
    "Wassign.C73_score_shown",
    "Wassign.C73_order",
    "Wassign.DisplayEx.shown"
   ],
   "note": "Manageable input (C49), powers that are moderate and zero or at least one (C60, C62) and a greatest preference of at most 2^23 - 4; how ties are rounded is left open."
  },
  {
   "property": "C74",
   "status": "proved",
   "theorems": [
    "Wassign.C74_choice_means_its_arguments",
    "Wassign.C74_bounds_is_min_max",
    "Wassign.C74_order_irrelevant",
    "Wassign.ArgsEx.written"
   ],
   "note": "Numbers up to 2^31-1 (C50 for others); a name that does not occur in a registered one (C32)."
  },
  {
   "property": "C75",
   "status": "proved",
   "theorems": [
    "Wassign.C75_program_is_assignment_problem",
    "Wassign.C75_success",
    "Wassign.C75_failure",
    "Wassign.C75_solve_never_panics",
    "Wassign.C75_same_results",
    "Wassign.C75_program_never_panics",
    "Wassign.LpEx.ideal_accurate",
    "Wassign.LpEx.ideal_quick",
    "Wassign.Conf.solver_accurate",
    "Wassign.Conf.solver_quick",
    "Wassign.Conf.solver_decides",
    "Wassign.Conf.replay_exact"
   ],
   "note": "Assumed of the MIP solver (any): what it reports as optimal is optimal up to less than one half in every variable; for failures, that it decides. Costs with at most 53 significant bits (every cost is one unless it exceeds 64-bit integers). As C07/C08, not if choices are tied together only through an unscheduled one. NaN and infinities as reported values are not modelled."
  },
  {
   "property": "C76",
   "status": "partial",
   "theorems": [
    "Wassign.C76_rejected",
    "Wassign.C76_numbers",
    "Wassign.C76_number_of_choices",
    "Wassign.C76_constraints",
    "Wassign.C76_bound_partial",
    "Wassign.C76_verdict",
    "Wassign.AnnounceEx.before",
    "Wassign.AnnounceEx.two_parts"
   ],
   "note": "Everything but the bound is proved in full. The bound is one only if the minima of all choices together fit into all slots but one (as C15, whose counterexample C15_bound_can_be_wrong applies) and the input is manageable. The test for the warning about the exponent is a parameter."
  },
  {
   "property": "C77",
   "status": "partial",
   "theorems": [
    "Wassign.C77_read_back",
    "Wassign.C77_ragged_rejected",
    "Wassign.C77_byte_order_mark",
    "Wassign.C77_any_file",
    "Wassign.C77_whole_file",
    "Wassign.C77_separators",
    "Wassign.C77_own_tables_partial",
    "Wassign.C77_own_tables_differ",
    "Wassign.CsvEx.C77_comma_in_name",
    "Wassign.CsvEx.C77_manual_example_rejected",
    "Wassign.CsvEx.C77_separator_beyond_ascii"
   ],
   "note": "Reading is proved in full (ASCII separators). The last sentence is false of the code (C77_own_tables_differ, C77_comma_in_name): the program writes a blank after each comma, so the tables are not CSV files in the usual sense. The csv crate is not part of /repo; its automaton is modelled from its documented behaviour."
  },
  {
   "property": "C78",
   "status": "partial",
   "theorems": [
    "Wassign.C78_first_in_order",
    "Wassign.C78_least_full_is_first",
    "Wassign.C78_first_is_found",
    "Wassign.C78_printed_is_attainable",
    "Wassign.C78_restarts_use_any_orders",
    "Wassign.C78_every_restart_counts",
    "Wassign.C78_enough_time",
    "Wassign.AttainEx.C78_best_can_be_out_of_reach"
   ],
   "note": "The first two sentences are proved in full. The last one is false of the code (C78_best_can_be_out_of_reach): there are inputs with a timetable that gives everybody their favourites which the program cannot print, for any random numbers, options and running time. What is proved of it: for schedulings that come first in some order (nothing optional, critical sets covered), some random stream and running time make the program print a timetable that is as good for the worst-off as any of them allows (C78_enough_time)."
  },
  {
   "property": "C79",
   "status": "partial",
   "theorems": [
    "Wassign.C79_levels_partial",
    "Wassign.C79_level_justified",
    "Wassign.C79_last_choice_unchecked"
   ],
   "note": "The last sentence is false of the code (C79_last_choice_unchecked): the critical sets are not tested after the last decision. Proved of it: sets without the choice decided on last are satisfied, the others in all slots but one. A level is also given up if the final check throws away a complete candidate (C04_can_miss); C79_level_justified is for inputs where it cannot (minima at most 1 or together at most the number of choosers, no constraint of a choice with itself)."
  },
  {
   "property": "C80",
   "status": "proved",
   "theorems": [
    "Wassign.C80_depth_published",
    "Wassign.C80_depth_shown",
    "Wassign.C80_program_depths",
    "Wassign.C80_many_choices",
    "Wassign.C80_message"
   ],
   "note": "C80_depth_published is about the searches with a log of what they publish (proved equal to the searches of the model, with the decisions as a ghost); C80_depth_shown about any reports of depths in any order. Colours are not modelled. From 65536 choices on the greatest depth is shown as inf (C80_many_choices)."
  },
  {
   "property": "C81",
   "status": "proved",
   "theorems": [
    "Wassign.C81_same_sessions",
    "Wassign.C81_names_do_not_matter"
   ],
   "note": "Stated for what the reader makes of the two scripts (C55, C68 say what that is); names may differ arbitrarily. RenameEx is a pair of scripts with a run that prints tables."
  },
  {
   "property": "C82",
   "status": "proved",
   "theorems": [
    "Wassign.C82_message_is_true",
    "Wassign.C82_accepted_iff",
    "Wassign.C82_plain_input_accepted",
    "Wassign.C82_really_unsatisfiable"
   ],
   "note": "Scripts that use only objects they have got (C54), release build, at most 2^30 parts and numbers of constraints up to 2^30 (ManageableRaw, C49). The message of a failed script is that of the script language and is abbreviated. A constraint about an unknown name is dropped without a message (Lost; C68 says when this cannot happen)."
  },
  {
   "property": "C83",
   "status": "proved",
   "theorems": [
    "Wassign.C83_accepted",
    "Wassign.C83_help",
    "Wassign.C83_refused",
    "Wassign.C83_defaults",
    "Wassign.C83_order",
    "Wassign.C83_same_as_set_arguments",
    "Wassign.C83_status",
    "Wassign.C83_help_status",
    "Wassign.C83_runs",
    "Wassign.CliEx.C83_not_twice"
   ],
   "note": "The source of clap is not in the repository: its rules for reading arguments are modelled from its documentation (Model/Cli.lean), the names, value parsers and defaults from options.rs. No panic: in builds where arithmetic wraps (C37). The float parser is a parameter; arguments that are not Unicode and abbreviations are not modelled."
  },
  {
   "property": "C84",
   "status": "proved",
   "theorems": [
    "Wassign.C84_moved_into_script",
    "Wassign.C84_input_same_for_all_options",
    "Wassign.C84_script_settings",
    "Wassign.C84_files_in_script_ignored",
    "Wassign.CarriedEx.both"
   ],
   "note": "CarriedEx.both is a program that reads two files, runs four workers and writes two files, with the prefix given either way."
  },
  {
   "property": "C85",
   "status": "proved",
   "theorems": [
    "Wassign.C85_programs_per_scheduling",
    "Wassign.C85_assignments_per_climb",
    "Wassign.C85_assignments_per_worker",
    "Wassign.C85_programs_per_worker",
    "Wassign.C85_summary"
   ],
   "note": "Counts are those of the program's own counters; C67 and C22 say that they are true."
  },
  {
   "property": "C86",
   "status": "partial",
   "theorems": [
    "Wassign.C86_same_input",
    "Wassign.C86_same_timetables",
    "Wassign.C86_same_worst_partial",
    "Wassign.C86_raising_changes_the_result"
   ],
   "note": "All but the last part is proved in full. The last part is false of the code (C86_raising_changes_the_result), because the levels of the search are the preferences as given, not the mirrored ones (C26); it holds if both times every mirrored preference is a level (C86_same_worst_partial)."
  },
  {
   "property": "C87",
   "status": "partial",
   "theorems": [
    "Wassign.C87_not_improvable_partial",
    "Wassign.C87_printed_not_improvable_partial",
    "Wassign.C87_better_slot_by_slot",
    "Wassign.C87_cost_increases",
    "Wassign.C87_small_exponents_do_not_tell",
    "Wassign.C88_printed_fair_if_nothing_optional"
   ],
   "note": "Full for inputs without optional choices and exponents of at least 1 with exact powers (C88_printed_fair_if_nothing_optional). Missing: schedulings that separate choices tied together (as C07), and exponents below 1, where the cost does not tell a perfect choice from the next best because the fraction is cut off (C87_small_exponents_do_not_tell)."
  },
  {
   "property": "C88",
   "status": "partial",
   "theorems": [
    "Wassign.C88_not_more_even_partial",
    "Wassign.C88_printed_not_more_even_partial",
    "Wassign.C88_exchange_is_more_even",
    "Wassign.C88_cost_accelerates",
    "Wassign.C88_printed_fair_if_nothing_optional",
    "Wassign.C88_uneven_with_exponent_between"
   ],
   "note": "Full for inputs without optional choices and exponents of at least 2 with exact powers (C88_printed_fair_if_nothing_optional). False of the code for exponents between 1 and 2 (C88_uneven_with_exponent_between: 1.1), because the fraction is cut off; otherwise missing as C07."
  },
  {
   "property": "C89",
   "status": "proved",
   "theorems": [
    "Wassign.C89_everything_still_allowed",
    "Wassign.C89_wishes_do_not_decide",
    "Wassign.C89_limits_keep_wishes",
    "Wassign.C89_printed_still_allowed",
    "Wassign.C89_dropping_changes_wishes"
   ],
   "note": "C89_dropping_changes_wishes shows why the last part is about limits only: without a constraint the wishes may be read differently. C89_no_solution_for_stricter_partial combines C89 with the verdict of C58, for the inputs C58 is proved for."
  },
  {
   "property": "C90",
   "status": "proved",
   "theorems": [
    "Wassign.C90_order_of_choosers",
    "Wassign.C90_rejected_in_any_order",
    "Wassign.C90_printed_in_any_order"
   ],
   "note": "Which of the equally good timetables is found may depend on the order (random numbers, ties in the backend); the property is about what is valid and how good it is."
  },
  {
   "property": "C91",
   "status": "proved",
   "theorems": [
    "Wassign.C91_order_of_statements",
    "Wassign.C91_rejected_in_any_order",
    "Wassign.C91_permuted",
    "Wassign.C91_repeated",
    "Wassign.C91_attendance_demanded_twice",
    "Wassign.C91_printed_in_any_order"
   ],
   "note": "C91_printed_in_any_order is about the program. C28 says the same of the list of constraints. C91_attendance_demanded_twice: a demand of attendance stated twice forbids the choice (finding of C28)."
  },
  {
   "property": "C92",
   "status": "proved",
   "theorems": [
    "Wassign.C92_order_of_choices",
    "Wassign.C92_counterpart",
    "Wassign.C92_rejected_in_any_order",
    "Wassign.C92_printed_in_any_order"
   ],
   "note": "The place of each part in the two orders is given by Spec.PartsMoved. Which of the equally good timetables is found may depend on the order, as in C90."
  },
  {
   "property": "C93",
   "status": "proved",
   "theorems": [
    "Wassign.C93_order_of_slots",
    "Wassign.C93_counterpart",
    "Wassign.C93_rejected_in_any_order",
    "Wassign.C93_parts_need_the_order",
    "Wassign.C93_printed_in_any_order"
   ],
   "note": "C93_parts_need_the_order shows that the condition is needed. An input without slots gets one generated slot; there is nothing to reorder."
  },
  {
   "property": "C94",
   "status": "proved",
   "theorems": [
    "Wassign.C94_offering_more",
    "Wassign.C94_as_good_as_before",
    "Wassign.C94_without_the_new",
    "Wassign.C94_names_in_the_way",
    "Wassign.C94_printed_still_valid"
   ],
   "note": "The condition on names is Spec.OffersMore.meant (the best matches of every name of a choice in a constraint stay the same); C94_names_in_the_way shows that it is needed. Together with C89 (making choices optional) this covers larger programmes in general."
  },
  {
   "property": "C95",
   "status": "proved",
   "theorems": [
    "Wassign.C95_in_other_words",
    "Wassign.C95_rejected_in_any_words",
    "Wassign.C95_full_name",
    "Wassign.C95_turned_round",
    "Wassign.C95_unknown_and_ambiguous",
    "Wassign.C95_printed_in_any_words"
   ],
   "note": "Spec.SameThing and Spec.Reworded say what other words are. For comparisons of a slot's size with a number the property is about stating the sides in the other order with the same sign, as the code does not mirror the sign (DESIGN finding 6). C95_unknown_and_ambiguous: why names must stand for one object each. C95_no_solution_in_any_words_partial combines C95 with the verdict of C58, for the inputs C58 is proved for."
  }
 ]
}