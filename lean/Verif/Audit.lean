import Verif.Props.Scoring
import Verif.Props.Rng
import Verif.Props.Search
import Verif.Props.Constraints
import Verif.Props.Expr
import Verif.Props.Build
import Verif.Props.Assignment
import Verif.Props.AssignmentLimits
import Verif.Props.AssignmentSearch
import Verif.Props.AssignmentState
import Verif.Props.Hill
import Verif.Props.Threaded
import Verif.Props.Reader
import Verif.Props.Output
import Verif.Props.Made
import Verif.Props.Main
import Verif.Props.Total
import Verif.Props.Session
import Verif.Props.Counters
import Verif.Props.Verdict
import Verif.Props.Single
import Verif.Props.Float
import Verif.Props.Objective
import Verif.Props.Rounding
import Verif.Props.Process
import Verif.Props.Deadline
import Verif.Props.Lps
import Verif.Props.Status
import Verif.Props.Stated
import Verif.Props.Climb
import Verif.Props.Order
import Verif.Props.Answers
import Verif.Props.Args
import Verif.Props.Display
import Verif.Props.Lp
import Verif.Props.Announce
import Verif.Conformance.Exact
import Verif.Props.Csv
import Verif.Props.Attain
import Verif.Instances.Attain
import Verif.Props.Restart
import Verif.Props.Levels
import Verif.Props.Depth
import Verif.Props.Rename
import Verif.Props.Rejected
import Verif.Props.Cli
import Verif.Props.Carried
import Verif.Props.Work
import Verif.Props.Shift
import Verif.Props.Pareto
import Verif.Props.Exponent
import Verif.Props.Looser
import Verif.Props.Reorder
import Verif.Props.Restate
import Verif.Props.Shuffle
import Verif.Props.Slots
import Verif.Props.Offer
import Verif.Props.Reword
import Verif.Props.Alike
import Verif.Props.Printed
/-
Generated by tools/gen_manifest.py: prints the axioms of every theorem of MANIFEST.json.
-/
#print axioms Wassign.C01_finite_score_is_valid
#print axioms Wassign.C01_feasibility_exact
#print axioms Wassign.C01_valid_passes
#print axioms Wassign.C02_scheduling_feasible_exact
#print axioms Wassign.C02_scheduling_feasible_returns
#print axioms Wassign.C03_produced_schedulings_feasible
#print axioms Wassign.C04_exhausted_means_none_partial
#print axioms Wassign.C04_false_means_none_partial
#print axioms Wassign.C04_can_miss
#print axioms Wassign.C05_no_infinite_search
#print axioms Wassign.C05_iterations_bounded
#print axioms Wassign.C05_fuel_irrelevant
#print axioms Wassign.C05_search_returns
#print axioms Wassign.C06_solved_assignments_valid
#print axioms Wassign.C06_valid_within_limit
#print axioms Wassign.C06_solution_accepted
#print axioms Wassign.C07_cheapest_within_limit_partial
#print axioms Wassign.C07_cheapest_if_nothing_optional
#print axioms Wassign.C07_cheapest_partial
#print axioms Wassign.C07_printed_cheapest_partial
#print axioms Wassign.C07_not_cheapest
#print axioms Wassign.C08_infeasible_means_none_partial
#print axioms Wassign.C08_none_means_none_partial
#print axioms Wassign.C08_none_although_one_exists
#print axioms Wassign.C09_search_finds_smallest
#print axioms Wassign.C09_solver_search_ends
#print axioms Wassign.C10_least_worst_partial
#print axioms Wassign.C10_least_level_partial
#print axioms Wassign.C10_worst_not_least
#print axioms Wassign.C10_printed_least_level_partial
#print axioms Wassign.C10_printed_least_worst_partial
#print axioms Wassign.C11_state_describes_scheduling
#print axioms Wassign.C11_same_as_fresh
#print axioms Wassign.C11_update_never_fails
#print axioms Wassign.C12_conclusive_results_stored
#print axioms Wassign.C12_same_scheduling_same_assignment
#print axioms Wassign.C12_cache_holds_results
#print axioms Wassign.C12_other_schedulings_unaffected
#print axioms Wassign.C12_inconclusive_not_cached
#print axioms Wassign.C13_good_schedulings_cover
#print axioms Wassign.C13_partial_decisions_pass
#print axioms Wassign.C14_simplification_lossless
#print axioms Wassign.C14_lossless_for_decisions
#print axioms Wassign.C15_bound_is_lower_bound_partial
#print axioms Wassign.C15_bound_le_max
#print axioms Wassign.C15_bound_can_be_wrong
#print axioms Wassign.C15_program_bound_partial
#print axioms Wassign.C16_never_worse
#print axioms Wassign.C16_invalid_iff
#print axioms Wassign.C16_announcements_improve
#print axioms Wassign.C16_climb_ends
#print axioms Wassign.C16_real_solver
#print axioms Wassign.C17_keys_are_moves
#print axioms Wassign.C17_moves_have_one_key
#print axioms Wassign.C18_swap_permutes
#print axioms Wassign.C19_neighbors_feasible_partial
#print axioms Wassign.C19_excess_is_companion
#print axioms Wassign.C19_moves_examined
#print axioms Wassign.C19_swaps_tried
#print axioms Wassign.C19_limit_exceeded
#print axioms Wassign.C20_best_of_all_iterations
#print axioms Wassign.C20_recorded_is_valid
#print axioms Wassign.C20_iterations_done
#print axioms Wassign.C20_real_worker
#print axioms Wassign.C21_panic_reported
#print axioms Wassign.C21_best_of_all_workers
#print axioms Wassign.C21_invalid_iff
#print axioms Wassign.C22_report_is_best_so_far
#print axioms Wassign.C22_never_worse
#print axioms Wassign.C22_unknown_workers_ignored
#print axioms Wassign.C22_final_report
#print axioms Wassign.C22_assignments_counted
#print axioms Wassign.C22_final_assignments
#print axioms Wassign.C22_lps_announced
#print axioms Wassign.C22_final_lps
#print axioms Wassign.C22_program_lps
#print axioms Wassign.C23_at_most_current_iteration
#print axioms Wassign.C23_cancelled_session_ends
#print axioms Wassign.C23_any_stops_everyone
#print axioms Wassign.C23_single_slot
#print axioms Wassign.C24_parts_consecutive
#print axioms Wassign.C24_blocks_tile
#print axioms Wassign.C25_mirrored_and_expanded
#print axioms Wassign.C25_final_preference
#print axioms Wassign.C26_levels_partial
#print axioms Wassign.C26_levels_not_normalized
#print axioms Wassign.C27_written_constraints_enforced
#print axioms Wassign.C27_infeasible_is_unsatisfiable
#print axioms Wassign.C27_nothing_else_forbidden_partial
#print axioms Wassign.C27_forbids_too_much
#print axioms Wassign.C28_order_does_not_matter
#print axioms Wassign.C28_repetition_does_not_matter_partial
#print axioms Wassign.C28_repetition_changes_meaning
#print axioms Wassign.C29_shared_limits
#print axioms Wassign.C29_shared_preferences
#print axioms Wassign.C29_independent_unchanged
#print axioms Wassign.C30_accepted_sensible
#print axioms Wassign.C30_meaning_partial
#print axioms Wassign.C30_accepts_iff
#print axioms Wassign.C30_mirrored_order_wrong
#print axioms Wassign.C30_refused_though_documented
#print axioms Wassign.C31_lookup
#print axioms Wassign.C31_exact_name
#print axioms Wassign.C31_resolves_unique
#print axioms Wassign.C32_fresh_name_partial
#print axioms Wassign.C32_existing_matches
#print axioms Wassign.ReadEx.C32_similar_name_is_not_fresh
#print axioms Wassign.C33_names_unique
#print axioms Wassign.C33_add_again
#print axioms Wassign.C33_duplicate_rejected
#print axioms Wassign.ReadEx.C33_late_rename_duplicates
#print axioms Wassign.C34_accepted_inputs
#print axioms Wassign.C35_independent_of_history
#print axioms Wassign.ReadEx.C35_options_persist
#print axioms Wassign.C36_applies_all_in_order
#print axioms Wassign.C36_failure_changes_nothing
#print axioms Wassign.C36_unnamed_untouched
#print axioms Wassign.C37_components_sum
#print axioms Wassign.C37_rejects_other_characters
#print axioms Wassign.C37_no_silent_overflow_partial
#print axioms Wassign.C37_release_overflow_accepted
#print axioms Wassign.C37_trailing_digits_ignored
#print axioms Wassign.C38_range
#print axioms Wassign.C38_slice
#print axioms Wassign.C38_empty_cannot_be_sliced
#print axioms Wassign.C38_rows
#print axioms Wassign.C39_compare_swaps
#print axioms Wassign.C39_reflexive_total
#print axioms Wassign.C39_transitive
#print axioms Wassign.C39_invalid_last
#print axioms Wassign.C39_worst_preference_first
#print axioms Wassign.C39_mixed_modes_not_transitive
#print axioms Wassign.C40_assignment_table
#print axioms Wassign.C40_valid_solution
#print axioms Wassign.C40_missing_reported
#print axioms Wassign.C40_unscheduled_reported
#print axioms Wassign.C40_readable
#print axioms Wassign.C40_shown_names_partial
#print axioms Wassign.C40_quotes_not_escaped
#print axioms Wassign.C40_tilde_lost
#print axioms Wassign.C41_scheduling_table
#print axioms Wassign.C41_missing_reported
#print axioms Wassign.C42_riffle_interleaves
#print axioms Wassign.C42_riffle_keeps_order
#print axioms Wassign.C42_shuffle_perm
#print axioms Wassign.C43_next_in_range
#print axioms Wassign.C43_all_values_possible
#print axioms Wassign.C44_derived_seeds_distinct
#print axioms Wassign.C44_worker_seeds_nodup
#print axioms Wassign.C44_workers_differ
#print axioms Wassign.C45_groups_are_the_closure
#print axioms Wassign.C46_lookup_exact
#print axioms Wassign.C47_edge_keys_injective
#print axioms Wassign.C47_node_keys_injective
#print axioms Wassign.C47_network_node_keys_distinct
#print axioms Wassign.C47_collision_beyond
#print axioms Wassign.C48_well_formed
#print axioms Wassign.C48_written_enforced
#print axioms Wassign.C49_build_never_panics
#print axioms Wassign.C49_prepare_succeeds
#print axioms Wassign.C49_no_worker_panics
#print axioms Wassign.C49_read_never_panics
#print axioms Wassign.C49_program_never_panics
#print axioms Wassign.MainEx.C49_contradictory_limits
#print axioms Wassign.MainEx.C49_negative_timeout
#print axioms Wassign.MainEx.C49_huge_number
#print axioms Wassign.MainEx.C49_large_number
#print axioms Wassign.C50_integers_partial
#print axioms Wassign.C50_large_integers_truncated
#print axioms Wassign.C50_strings
#print axioms Wassign.C50_bounds_strings
#print axioms Wassign.C50_preferences
#print axioms Wassign.C51_double_negation
#print axioms Wassign.C51_negation_complements_partial
#print axioms Wassign.C51_both_hold_when_unscheduled
#print axioms Wassign.C52_printed_timetable
#print axioms Wassign.C52_no_other_outcome
#print axioms Wassign.C52_errors
#print axioms Wassign.MainEx.printed
#print axioms Wassign.C53_failed_call_has_no_effect
#print axioms Wassign.C54_scripts_never_panic
#print axioms Wassign.C55_input_as_described
#print axioms Wassign.C55_at_most_one
#print axioms Wassign.C56_why_workers_stop
#print axioms Wassign.C56_cancelled_only_with_any
#print axioms Wassign.C56_stops_when_exhausted
#print axioms Wassign.C56_threads
#print axioms Wassign.C56_critical_sets
#print axioms Wassign.C56_greedy
#print axioms Wassign.C56_options_reach_workers
#print axioms Wassign.C56_any_ends_session
#print axioms Wassign.C57_interleaving_irrelevant
#print axioms Wassign.C57_deterministic
#print axioms Wassign.C57_same_output
#print axioms Wassign.C58_verdict_partial
#print axioms Wassign.C58_goes_on_partial
#print axioms Wassign.VerdictEx.C58_wrong_verdict
#print axioms Wassign.C59_greedy_optimal_partial
#print axioms Wassign.C59_optimal_partial
#print axioms Wassign.C59_lexicographic_partial
#print axioms Wassign.C59_session_ends
#print axioms Wassign.C60_score_formula
#print axioms Wassign.C60_every_solution_scored_partial
#print axioms Wassign.C60_unscorable
#print axioms Wassign.C60_unscorable_no_solution
#print axioms Wassign.FloatEx.C60_hidden_solution
#print axioms Wassign.C61_objective
#print axioms Wassign.C61_same_ranking_partial
#print axioms Wassign.ObjectiveEx.C61_not_the_best_score
#print axioms Wassign.C62_order_partial
#print axioms Wassign.ObjectiveEx.C62_too_close
#print axioms Wassign.C63_input_text
#print axioms Wassign.C63_exit_zero
#print axioms Wassign.C63_exit_other
#print axioms Wassign.C63_delivered_timetable
#print axioms Wassign.C63_files
#print axioms Wassign.C63_standard_output
#print axioms Wassign.C63_accepted_exits_zero
#print axioms Wassign.C63_seed
#print axioms Wassign.C63_seed_from_clock
#print axioms Wassign.ProcEx.process
#print axioms Wassign.ProcEx.C63_stale_files
#print axioms Wassign.C64_reproducible
#print axioms Wassign.ProcEx.reproducible_hyps
#print axioms Wassign.C65_no_lp_after_deadline
#print axioms Wassign.C65_no_climbing_after_deadline
#print axioms Wassign.C65_no_search_after_deadline
#print axioms Wassign.C65_no_iteration_after_deadline
#print axioms Wassign.C65_assignments_before_deadline
#print axioms Wassign.C65_lps_before_deadline
#print axioms Wassign.C65_session_ends_after_deadline
#print axioms Wassign.DeadlineEx.overdue
#print axioms Wassign.C66_pieces
#print axioms Wassign.C66_flushed
#print axioms Wassign.C66_messages
#print axioms Wassign.C66_failures
#print axioms Wassign.areLines_unique
#print axioms Wassign.C67_summary_is_true
#print axioms Wassign.C67_program_summary
#print axioms Wassign.C67_panic
#print axioms Wassign.C67_bar_position
#print axioms Wassign.C67_remaining
#print axioms Wassign.C67_bars_restored
#print axioms Wassign.C67_bar_shown
#print axioms Wassign.StatusEx.summary_hyps
#print axioms Wassign.C68_says_what_was_written
#print axioms Wassign.C68_every_constraint_partial
#print axioms Wassign.C68_printed_timetable_partial
#print axioms Wassign.StatedEx.C68_rename_changes_meaning
#print axioms Wassign.StatedEx.C68_rename_drops_constraint
#print axioms Wassign.C69_local_optimum
#print axioms Wassign.C69_every_move_considered
#print axioms Wassign.C69_no_better_move
#print axioms Wassign.C69_no_move_helps_the_worst_off
#print axioms Wassign.ClimbEx.session
#print axioms Wassign.C70_one_iteration_suffices
#print axioms Wassign.ClimbEx.assignable
#print axioms Wassign.C71_most_constrained_first
#print axioms Wassign.C71_decided_in_order
#print axioms Wassign.C71_emptier_slots_first
#print axioms Wassign.OrderEx.tried
#print axioms Wassign.C72_best_of_the_climb
#print axioms Wassign.C72_best_of_the_worker
#print axioms Wassign.C72_best_of_the_session
#print axioms Wassign.C72_nothing_better_seen
#print axioms Wassign.AnswersEx.seen
#print axioms Wassign.C73_number
#print axioms Wassign.C73_score_shown
#print axioms Wassign.C73_order
#print axioms Wassign.DisplayEx.shown
#print axioms Wassign.C74_choice_means_its_arguments
#print axioms Wassign.C74_bounds_is_min_max
#print axioms Wassign.C74_order_irrelevant
#print axioms Wassign.ArgsEx.written
#print axioms Wassign.C75_program_is_assignment_problem
#print axioms Wassign.C75_success
#print axioms Wassign.C75_failure
#print axioms Wassign.C75_solve_never_panics
#print axioms Wassign.C75_same_results
#print axioms Wassign.C75_program_never_panics
#print axioms Wassign.LpEx.ideal_accurate
#print axioms Wassign.LpEx.ideal_quick
#print axioms Wassign.Conf.solver_accurate
#print axioms Wassign.Conf.solver_quick
#print axioms Wassign.Conf.solver_decides
#print axioms Wassign.Conf.replay_exact
#print axioms Wassign.C76_rejected
#print axioms Wassign.C76_numbers
#print axioms Wassign.C76_number_of_choices
#print axioms Wassign.C76_constraints
#print axioms Wassign.C76_bound_partial
#print axioms Wassign.C76_verdict
#print axioms Wassign.AnnounceEx.before
#print axioms Wassign.AnnounceEx.two_parts
#print axioms Wassign.C77_read_back
#print axioms Wassign.C77_ragged_rejected
#print axioms Wassign.C77_byte_order_mark
#print axioms Wassign.C77_any_file
#print axioms Wassign.C77_whole_file
#print axioms Wassign.C77_separators
#print axioms Wassign.C77_own_tables_partial
#print axioms Wassign.C77_own_tables_differ
#print axioms Wassign.CsvEx.C77_comma_in_name
#print axioms Wassign.CsvEx.C77_manual_example_rejected
#print axioms Wassign.CsvEx.C77_separator_beyond_ascii
#print axioms Wassign.C78_first_in_order
#print axioms Wassign.C78_least_full_is_first
#print axioms Wassign.C78_first_is_found
#print axioms Wassign.C78_printed_is_attainable
#print axioms Wassign.C78_restarts_use_any_orders
#print axioms Wassign.C78_every_restart_counts
#print axioms Wassign.C78_enough_time
#print axioms Wassign.AttainEx.C78_best_can_be_out_of_reach
#print axioms Wassign.C79_levels_partial
#print axioms Wassign.C79_level_justified
#print axioms Wassign.C79_last_choice_unchecked
#print axioms Wassign.C80_depth_published
#print axioms Wassign.C80_depth_shown
#print axioms Wassign.C80_program_depths
#print axioms Wassign.C80_many_choices
#print axioms Wassign.C80_message
#print axioms Wassign.C81_same_sessions
#print axioms Wassign.C81_names_do_not_matter
#print axioms Wassign.C82_message_is_true
#print axioms Wassign.C82_accepted_iff
#print axioms Wassign.C82_plain_input_accepted
#print axioms Wassign.C82_really_unsatisfiable
#print axioms Wassign.C83_accepted
#print axioms Wassign.C83_help
#print axioms Wassign.C83_refused
#print axioms Wassign.C83_defaults
#print axioms Wassign.C83_order
#print axioms Wassign.C83_same_as_set_arguments
#print axioms Wassign.C83_status
#print axioms Wassign.C83_help_status
#print axioms Wassign.C83_runs
#print axioms Wassign.CliEx.C83_not_twice
#print axioms Wassign.C84_moved_into_script
#print axioms Wassign.C84_input_same_for_all_options
#print axioms Wassign.C84_script_settings
#print axioms Wassign.C84_files_in_script_ignored
#print axioms Wassign.CarriedEx.both
#print axioms Wassign.C85_programs_per_scheduling
#print axioms Wassign.C85_assignments_per_climb
#print axioms Wassign.C85_assignments_per_worker
#print axioms Wassign.C85_programs_per_worker
#print axioms Wassign.C85_summary
#print axioms Wassign.C86_same_input
#print axioms Wassign.C86_same_timetables
#print axioms Wassign.C86_same_worst_partial
#print axioms Wassign.C86_raising_changes_the_result
#print axioms Wassign.C87_not_improvable_partial
#print axioms Wassign.C87_printed_not_improvable_partial
#print axioms Wassign.C87_better_slot_by_slot
#print axioms Wassign.C87_cost_increases
#print axioms Wassign.C87_small_exponents_do_not_tell
#print axioms Wassign.C88_printed_fair_if_nothing_optional
#print axioms Wassign.C88_not_more_even_partial
#print axioms Wassign.C88_printed_not_more_even_partial
#print axioms Wassign.C88_exchange_is_more_even
#print axioms Wassign.C88_cost_accelerates
#print axioms Wassign.C88_uneven_with_exponent_between
#print axioms Wassign.C89_everything_still_allowed
#print axioms Wassign.C89_wishes_do_not_decide
#print axioms Wassign.C89_limits_keep_wishes
#print axioms Wassign.C89_printed_still_allowed
#print axioms Wassign.C89_dropping_changes_wishes
#print axioms Wassign.C90_order_of_choosers
#print axioms Wassign.C90_rejected_in_any_order
#print axioms Wassign.C90_printed_in_any_order
#print axioms Wassign.C91_order_of_statements
#print axioms Wassign.C91_rejected_in_any_order
#print axioms Wassign.C91_permuted
#print axioms Wassign.C91_repeated
#print axioms Wassign.C91_attendance_demanded_twice
#print axioms Wassign.C91_printed_in_any_order
#print axioms Wassign.C92_order_of_choices
#print axioms Wassign.C92_counterpart
#print axioms Wassign.C92_rejected_in_any_order
#print axioms Wassign.C92_printed_in_any_order
#print axioms Wassign.C93_order_of_slots
#print axioms Wassign.C93_counterpart
#print axioms Wassign.C93_rejected_in_any_order
#print axioms Wassign.C93_parts_need_the_order
#print axioms Wassign.C93_printed_in_any_order
#print axioms Wassign.C94_offering_more
#print axioms Wassign.C94_as_good_as_before
#print axioms Wassign.C94_without_the_new
#print axioms Wassign.C94_names_in_the_way
#print axioms Wassign.C94_printed_still_valid
#print axioms Wassign.C95_in_other_words
#print axioms Wassign.C95_rejected_in_any_words
#print axioms Wassign.C95_full_name
#print axioms Wassign.C95_turned_round
#print axioms Wassign.C95_unknown_and_ambiguous
#print axioms Wassign.C95_printed_in_any_words
