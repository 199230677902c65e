TOP.update({
"S100":["C63_input_text"],"S101":["C63_input_text"],"S102":["C63_files"],"S103":["C63_files"],"S104":["C63_files"],"S105":["C63_exit_other"],
"S106":["C63_seed"],"S107":["C63_seed_from_clock"],"S108":["C63_exit_zero","C63_files"],"S109":["C64_reproducible"],
"S110":["C60_score_formula","C62_order_partial"],"S111":["C60_every_solution_scored_partial"],"S112":["C60_score_formula","C61_objective"],"S113":["C60_score_formula"],
"S114":["C60_score_formula"],"S115":["C39_worst_preference_first","C59_lexicographic_partial"],"S116":["C56_greedy"],"S117":["C39_worst_preference_first"],
"S118":["C01_finite_score_is_valid"],"S119":["C56_greedy"],"S120":["C56_options_reach_workers"],"S122":["C44_workers_differ"],
"S123":["C40_assignment_table"],"S124":["C40_assignment_table","C41_scheduling_table","C40_readable"],"S125":["C40_assignment_table"],"S126":["C40_assignment_table"],
"S127":["C26_levels_partial"],"S128":["C26_levels_partial"],"S129":["C25_mirrored_and_expanded"],"S130":["C25_mirrored_and_expanded"],
"S131":["C48_well_formed","C24_parts_consecutive"],"S132":["C24_blocks_tile"],"S133":["C29_shared_limits"],"S134":["C29_shared_limits"],"S135":["C29_shared_preferences"],
"S136":["C48_well_formed"],"S137":["C41_scheduling_table","C48_well_formed"],"S138":["C27_infeasible_is_unsatisfiable"],"S139":["C24_parts_consecutive"],
"S140":["C27_written_constraints_enforced"],"S141":["C27_written_constraints_enforced"],"S142":["C27_written_constraints_enforced"],"S143":["C27_infeasible_is_unsatisfiable"],
"S144":["C51_negation_complements_partial"],"S145":["C10_least_worst_partial"],"S147":["C02_scheduling_feasible_exact"],"S148":["C02_scheduling_feasible_exact"],
"S149":["(none of the claims: the list is ascending already; a lemma about the sorted list fails)"],"S150":["C01_feasibility_exact"],
"S151":["C04_exhausted_means_none_partial"],"S152":["C04_exhausted_means_none_partial"],"S153":["C04_exhausted_means_none_partial"],"S154":["C04_exhausted_means_none_partial"],
"S155":["(none of the claims: the final check still decides; the lemma about the candidates fails)"],"S156":["C03_produced_schedulings_feasible"],
"S157":["C04_exhausted_means_none_partial"],"S158":["(none of the claims: pruning only; the totality proof fails)"],"S159":["C05_search_returns"],
"S160":["C45_groups_are_the_closure"],"S161":["C46_lookup_exact","C14_simplification_lossless"],"S162":["C13_good_schedulings_cover"],
"S163":["C08_infeasible_means_none_partial"],"S164":["C06_solved_assignments_valid"],"S165":["C06_solved_assignments_valid"],"S166":["C11_state_describes_scheduling"],
"S167":["C11_state_describes_scheduling"],"S168":["C08_infeasible_means_none_partial"],"S169":["C06_solved_assignments_valid"],"S170":["C06_solved_assignments_valid"],
"S171":["C12_inconclusive_not_cached","C08_none_means_none_partial"],"S172":["C12_inconclusive_not_cached"],"S173":["C06_solved_assignments_valid"],
"S174":["C47_node_keys_injective"],"S175":["C31_lookup"],"S176":["C31_lookup"],"S177":["C30_meaning_partial"],"S178":["C30_meaning_partial"],
"S179":["C50_preferences"],"S180":["C50_strings","C55_input_as_described"],"S181":["C32_fresh_name_partial","C55_input_as_described"],"S182":["C34_accepted_inputs"],
"S183":["C35_independent_of_history"],"S184":["C50_large_integers_truncated"],"S185":["C36_applies_all_in_order"],"S188":["C18_swap_permutes"],
"S189":["C19_excess_is_companion"],"S190":["C21_panic_reported"],"S191":["C44_workers_differ","C20_real_worker"],
"S121":[],"S146":[],"S186":[],"S187":[],
})
TIGHT.update({"S189":"only a worked example failed the first time; C19_excess_is_companion added"})
HARMLESS={"S121","S146","S186","S187"}
TOP.update({
"S200":["C66_messages"],"S201":["C66_messages"],"S202":["C66_flushed"],"S203":["C66_messages","C66_failures"],"S204":["C66_pieces"],"S205":["C66_messages"],
"S206":["C67_bars_restored"],"S207":["C67_bars_restored"],"S208":["C67_bars_restored"],"S209":["C67_remaining"],"S210":["C67_remaining"],"S211":["C67_remaining","C67_bar_position"],
"S212":["C67_bar_position"],"S213":["C67_bar_position"],"S214":["C67_summary_is_true"],"S215":["C67_summary_is_true"],"S216":["C67_summary_is_true"],"S217":["C67_summary_is_true"],
"S218":["C67_summary_is_true"],"S220":["C65_no_climbing_after_deadline"],"S221":["C65_assignments_before_deadline"],"S222":[],"S223":["C65_no_climbing_after_deadline"],
"S224":["C65_assignments_before_deadline"],"S225":["C65_lps_before_deadline"],"S226":["C65_no_lp_after_deadline"],"S227":["C08_none_means_none_partial","C12_inconclusive_not_cached"],
"S228":["C65_no_search_after_deadline"],"S229":["C65_session_ends_after_deadline"],"S230":["C23_at_most_current_iteration","C23_cancelled_session_ends"],
"S240":["C68_says_what_was_written"],"S241":["C68_says_what_was_written"],"S242":["C68_says_what_was_written"],"S243":["C68_says_what_was_written"],"S244":["C68_says_what_was_written"],
"S245":["C68_says_what_was_written"],"S246":["C68_says_what_was_written"],"S247":["C30_meaning_partial","C68_says_what_was_written"],"S248":["C31_resolves_unique","C30_accepts_iff"],
"S249":["C68_says_what_was_written"],"S250":["C34_accepted_inputs"],"S251":["C68_says_what_was_written"],"S252":["C68_says_what_was_written"],
"S253":["(none: the edited program is stricter; StatedEx.C68_rename_drops_constraint, which describes the code as it is, fails)"],
})
TIGHT.update({"S202":"survived the first time; C66_flushed added","S213":"first time only a worked example failed; C67_bar_position now says that the length is positive, what it is, and where the bar starts"})
HARMLESS|={"S222"}
NOTE["S222"]="breaks no claim: the loop asks the clock itself before it does anything else"
TOP.update({
"S260":["C69_local_optimum"],"S261":["C69_local_optimum"],"S262":["C69_local_optimum"],"S263":["C69_every_move_considered","C69_no_better_move"],
"S264":["C69_every_move_considered"],"S265":["C69_every_move_considered","C19_moves_examined"],"S266":["C19_moves_examined"],
"S267":["C20_best_of_all_iterations"],"S268":["C20_best_of_all_iterations","C70_one_iteration_suffices"],
"S270":["C71_emptier_slots_first"],"S271":["C71_emptier_slots_first"],"S272":["C71_emptier_slots_first"],"S273":["C71_most_constrained_first"],
"S274":["C71_most_constrained_first"],"S275":["C71_emptier_slots_first"],"S276":["C71_emptier_slots_first","C04_exhausted_means_none_partial"],
"S277":["C06_solved_assignments_valid","C49_program_never_panics"],"S278":["C01_finite_score_is_valid"],
})
TIGHT.update({"S266":"survived an automatic sweep (A0052) before; C19_moves_examined added",
"S277":"an automatic sweep showed that the model did not call Assignment::new (A0148); decode now does",
"S278":"an automatic sweep showed that the model did not use is_invalid (A0110); report and handOut now do; the edit then still survived, because no unfilled scheduling ever reaches them, so evaluate, the other user of is_invalid, was made to call it as the Rust code does"})
TOP.update({
"S280":["C72_worker_answer","C16_never_worse"],"S281":["C16_climb_ends"],"S282":["C69_every_move_considered","C69_local_optimum"],"S283":["C69_local_optimum"],
"S284":["C19_swaps_tried"],"S285":["C19_neighbors_feasible_partial","C19_excess_is_companion"],"S286":["C73_number"],"S287":["C73_number"],"S288":["C73_number"],
"S289":["C73_score_shown"],"S290":["C73_score_shown"],"S291":["C73_score_shown"],"S292":["C74_choice_means_its_arguments"],"S293":["C74_choice_means_its_arguments"],
"S294":["C74_choice_means_its_arguments"],"S295":["C38_rows"],"S296":["C67_bar_shown"],"S297":["C20_best_of_all_iterations"],"S298":["C21_best_of_all_workers"],
"S299":["C18_swap_permutes"],
})
TIGHT.update({"S284":"survived an automatic sweep (A0498) before; C19_swaps_tried added","S294":"survived an automatic sweep (A0431) before; C74 added",
"S295":"survived an automatic sweep (A0358) before; C38_rows added","S296":"only a worked example failed in an automatic sweep (A0301); C67_bar_shown added"})
EQ="equivalent: the edited program is the same function"
AUTO={
"A0052":"tightened: C19_moves_examined added, which fails for this edit (see S266)","A0110":"tightened: the model now uses is_invalid where the Rust code does (see S278)",
"A0148":"tightened: decode now calls Assignment::new (see S277)","A0498":"tightened: C19_swaps_tried added (see S284)","A0358":"tightened: C38_rows added (see S295)",
"A0431":"tightened: C74 added (see S294)","A0301":"tightened: C67_bar_shown added (see S296)","A0176":"tightened: see A0110",
"A0204":"tightened: see A0052","A0065":"edits a specification relation (Moves), not the program","A0133":"no claim is about the heights of the union-find trees; the sets are the same (C45)",
"A0155":"no claim is about the heights of the union-find trees; the sets are the same (C45)","A0157":"the key of .none stays distinct from the others and keeps its place in the order",
"A0132":"is_valid is not called by any modelled function","A0142":"the counter only numbers the deadline tests of a search, which are arbitrary anyway",
"A0087":"killed by an example before C56_threads, which is later in the import order, was tried; C56_threads fails too","A0288":"killed by an example before the claims about sessions were tried",
"A0072":"quotients by infinity are not reached: scores are divided by finite positive numbers only (C60)","A0116":"infinity times something is not reached (C60)",
"A0202":"division by zero is not reached (C60)","A0250":"infinite dividends are not reached (C60)","A0278":"infinite summands are not reached (C60)",
"A0227":"infinity as a not-a-number: not reached, and totalCmp does not use isNaN",
}
TOP.update({i: ["C75_program_is_assignment_problem"] for i in ["S%d" % n for n in range(300, 315)]})
TOP.update({i: ["C75_success"] for i in ["S315","S316","S317","S318","S319"]})
TOP.update({"S320":["C75_success","C75_failure"],"S321":["C75_program_is_assignment_problem"],"S322":["C75_program_is_assignment_problem"],"S323":["C75_success"],
"S324":["(none: the theorems hold for every sequence of limits; the lemmas that unfold the definition fail)"],"S325":["C75_same_results"],
"S326":["C76_numbers"],"S327":["C76_constraints"],"S328":["C76_bound_partial"],"S329":["C76_bound_partial"],"S330":["C76_bound_partial"],"S331":["C76_bound_partial"],
"S332":["C76_verdict"],"S333":["C76_verdict"],"S334":["C76_rejected"],"S335":["C76_bound_partial"]})
TIGHT.update({"S327":"no claim mentioned this line before; C76_constraints added"})
TOP.update({i: ["C77_read_back"] for i in ["S%d" % n for n in range(336, 363)]})
TOP.update({"S342":["C77_byte_order_mark"],"S343":["C77_ragged_rejected"],"S344":["C77_ragged_rejected"],"S354":["C77_separators"],"S356":["C77_separators"],"S357":["C77_separators"],
"S358":["C77_separator_beyond_ascii"],"S359":["C77_whole_file"],"S361":["C77_whole_file"],"S363":["C77_separators"]})
TIGHT.update({i:"no theorem mentioned this before the round; C77_separators added" for i in ["S354","S356","S357","S363"]})
TOP.update({"S364":["C78_restarts_use_any_orders"],"S365":["C78_every_restart_counts"],"S366":["C71_emptier_slots_first"],"S367":["C71_emptier_slots_first"],
"S370":["C79_levels_partial"],"S371":["C79_levels_partial"],"S372":["C78_every_restart_counts"],"S373":["C20_best_of_all_iterations","C78_enough_time"],
"S374":["C78_enough_time"],"S375":["C78_every_restart_counts"]})
TIGHT.update({"S370":"no theorem said at which level a search starts; C79_levels_partial added","S371":"no theorem said at which level a search starts; C79_levels_partial added"})
TOP["S369"]=["C78_restarts_use_any_orders"]
HARMLESS|={"S368"}
NOTE["S368"]="the claims hold for every random stream, so reusing a random state breaks none of them"
TOP["S368"]=[]
TOP.update({i: ["C80_depth_published"] for i in ["S376","S377","S379","S380"]})
TOP.update({i: ["C80_depth_shown"] for i in ["S381","S382","S383","S384","S385","S386","S387","S388","S389","S394"]})
TOP.update({i: ["C80_message"] for i in ["S390","S391","S392","S393"]})
TOP.update({i: ["C79_levels_partial"] for i in ["S396","S397","S398","S399"]})
TOP["S378"]=[]; TOP["S395"]=[]
NOTE["S378"]="the same depth is published again at the head of the loop, so the claim stays true; only the lemma that describes the log exactly fails"
NOTE["S395"]="the claim is about every published depth, so publishing fewer breaks nothing; only the lemma that describes the log exactly fails"

TOP.update({i: ["C81_same_sessions","C81_names_do_not_matter"] for i in ["S%d" % n for n in range(400, 408)]})
TOP.update({i: ["C82_message_is_true","C82_accepted_iff"] for i in ["S%d" % n for n in range(408, 430)]})
TOP.update({i: ["C83_accepted"] for i in ["S%d" % n for n in range(430, 449)]})
TOP.update({"S449":["C83_defaults"],"S450":["C83_defaults","C83_accepted"],"S451":["C83_defaults"],"S452":["C83_status"],"S453":["C83_help"]})

# rounds 14 (mechanical, records in the format of the others) and 15
BYFILE={"Announce":["C76_numbers"],"Cli":["C83_accepted"],"Csv":["C77_read_back"],"Depth":["C80_depth_shown"],"Display":["C73_score_shown"],"Lp":["C75_success"],
"Output":["C40_assignment_table"],"Process":["C63_exit_zero"]}
R14EQ={"A0568":"an instance of the definition with another rule for ties; the theorems hold for every such rule","A0578":"an instance of the definition with another rule for ties; the theorems hold for every such rule",
"A0586":"both branches give 0 for 0: the same function","A0594":"the slots of a valid solution are in range, so no run of the program sees a difference","A0597":"only after the year 2554; no property speaks of that case"}
HARMLESS|=set(R14EQ); NOTE.update(R14EQ); TOP.update({i:[] for i in R14EQ})
TOP["A0532"]=["C83_help_status"]; TIGHT["A0532"]="survived at first; C83_help_status and C83_runs added"
TOP.update({"S454":["C84_moved_into_script"],"S455":["C84_script_settings"],"S456":["C84_moved_into_script","C63_delivered_timetable"],"S457":["C83_runs"],"S458":["C84_moved_into_script"],
"S459":["C63_input_text"],"S460":["C63_input_text"],"S461":["C63_input_text"],"S462":["C63_delivered_timetable"]})
TIGHT["S457"]="no theorem said that the program runs with the parsed options; C83_runs added"

# round 16
TOP.update({i: ["C85_programs_per_scheduling","C85_programs_per_worker"] for i in ["S463","S464","S465","S466","S475"]})
TOP.update({i: ["C85_assignments_per_climb","C85_assignments_per_worker"] for i in ["S467","S468","S469","S470","S471","S472","S474","S476"]})
TOP.update({"S473":[],"S477":["C86_same_input","C25_mirrored_and_expanded"],"S478":["C86_same_input"],"S479":["C86_same_input"],"S480":["C29_shared_preferences"],"S481":[]})
HARMLESS|={"S473"}
NOTE["S473"]="more random tries to fill up with exchanges; the limit on the neighbours, and so on the assignments solved, stays the same"
NOTE["S481"]="the repair of finding 1: the theorems that say that the levels are those of the preferences as given fail, as they should"

# round 17
TOP.update({i: ["C87_not_improvable_partial","C88_not_more_even_partial"] for i in ["S484","S485","S486"]})
TOP.update({i: ["C87_printed_not_improvable_partial","C56_options_reach_workers"] for i in ["S482","S483"]})
TOP.update({"S487":["C87_cost_increases","C88_cost_accelerates"],"S488":["C87_cost_increases","C88_cost_accelerates"]})

# round 18
TOP.update({i: ["C89_everything_still_allowed","C89_limits_keep_wishes"] for i in ["S490","S491","S492","S494","S495"]})
TOP.update({i: ["C90_order_of_choosers","C90_rejected_in_any_order"] for i in ["S489","S493","S496","S497"]})

# round 19
TOP.update({i: ["C92_order_of_choices","C92_rejected_in_any_order"] for i in ["S498","S499","S500","S501","S502","S503","S507"]})
TOP.update({i: ["C91_order_of_statements","C91_permuted"] for i in ["S504","S505","S506"]})
TOP["S508"]=["C31_lookup"]

# round 20
TOP.update({i: ["C95_in_other_words","C95_rejected_in_any_words"] for i in ["S509","S511","S512","S513","S514"]})
TOP["S510"]=["C31_lookup","C95_unknown_and_ambiguous"]
