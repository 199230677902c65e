#!/usr/bin/env python3
# Converts the results of the seeded-bug runs (kept outside /verif) into seeded/LOG.jsonl.
import json, sys
TOP = {
"S01":["C02_scheduling_feasible_exact"],"S02":["C01_feasibility_exact","C02_scheduling_feasible_exact"],"S03":["C01_feasibility_exact","C01_valid_passes"],
"S04":["C02_scheduling_feasible_exact","C03_produced_schedulings_feasible"],"S05":["C01_feasibility_exact","C01_finite_score_is_valid"],"S06":["C01_feasibility_exact"],
"S07":["C39_invalid_last","C20_best_of_all_iterations"],"S08":["C39_reflexive_total","C39_transitive"],"S09":["C43_next_in_range"],"S10":["C44_derived_seeds_distinct"],
"S11":["C42_riffle_interleaves"],"S12":["C13_partial_decisions_pass","C04_exhausted_means_none_partial"],"S13":["C04_exhausted_means_none_partial","C04_false_means_none_partial"],
"S14":["C04_exhausted_means_none_partial"],"S15":["C04_exhausted_means_none_partial"],"S16":["C04_exhausted_means_none_partial","C05_search_returns"],
"S17":["C03_produced_schedulings_feasible"],"S18":["C04_false_means_none_partial"],"S19":["C05_no_infinite_search","C04_exhausted_means_none_partial"],
"S20":["C13_good_schedulings_cover"],"S21":["C14_simplification_lossless"],"S22":["C15_bound_is_lower_bound_partial"],"S23":["C14_simplification_lossless"],
"S25":["C27_written_constraints_enforced"],"S26":["C27_written_constraints_enforced"],"S27":["C29_shared_limits"],"S28":["C24_parts_consecutive","C48_well_formed"],
"S29":["C24_parts_consecutive"],"S30":["C29_shared_preferences","C25_final_preference"],"S31":["C29_shared_preferences"],"S32":["C06_solved_assignments_valid"],
"S33":["C06_solved_assignments_valid","C08_none_means_none_partial"],"S34":["C07_cheapest_within_limit_partial","C08_infeasible_means_none_partial"],
"S35":["C06_solved_assignments_valid"],"S36":["C06_solved_assignments_valid","C08_none_means_none_partial"],"S37":["C11_state_describes_scheduling"],
"S39":["C12_inconclusive_not_cached"],"S40":["C09_search_finds_smallest"],"S41":["C09_search_finds_smallest","C12_conclusive_results_stored"],"S42":["C10_least_level_partial"],
"S43":["C06_solved_assignments_valid"],"S44":["C47_node_keys_injective","C47_network_node_keys_distinct"],
"S50":["C17_keys_are_moves"],"S51":["C17_keys_are_moves","C17_moves_have_one_key"],"S52":["C18_swap_permutes"],"S53":["C19_neighbors_feasible_partial"],
"S54":["C19_neighbors_feasible_partial"],"S55":["C16_announcements_improve","C16_climb_ends"],"S56":["C22_final_report"],"S57":["C22_assignments_counted","C22_final_assignments"],
"S58":["C16_invalid_iff"],"S59":["C20_best_of_all_iterations"],"S60":["C20_best_of_all_iterations"],"S61":["C20_iterations_done"],
"S62":["C21_best_of_all_workers"],"S63":["C21_panic_reported"],"S64":["C56_threads"],"S65":["C23_at_most_current_iteration","C23_cancelled_session_ends"],
"S66":["C23_any_stops_everyone"],"S67":["C56_stops_when_exhausted"],"S68":["C22_report_is_best_so_far","C22_never_worse"],"S69":["C22_report_is_best_so_far","C22_final_report"],
"S70":["C37_components_sum"],"S71":["C37_components_sum"],"S72":["C36_applies_all_in_order"],"S73":["C36_applies_all_in_order","C36_unnamed_untouched"],
"S74":["C33_add_again","C55_input_as_described"],"S75":["C33_duplicate_rejected","C33_names_unique"],"S76":["C34_accepted_inputs"],"S77":["C35_independent_of_history"],
"S78":["C50_bounds_strings","C55_input_as_described"],"S79":["C34_accepted_inputs"],"S80":["C38_slice"],"S81":["C31_resolves_unique"],"S82":["C40_assignment_table"],
"S83":["C41_scheduling_table"],"S84":["C31_lookup"],"S85":["C31_lookup"],"S86":["C30_meaning_partial"],"S87":["C30_accepts_iff"],"S88":["C30_meaning_partial"],
"S89":["C45_groups_are_the_closure"],"S90":["C44_workers_differ"],"S91":["C52_no_other_outcome"],"S92":["C52_printed_timetable"],"S93":["C56_threads"],
"S94":["C56_options_reach_workers","C56_any_ends_session"],"S95":["C56_greedy","C56_options_reach_workers"],"S96":["C56_critical_sets"],"S97":["C25_final_preference","C48_well_formed"],
"S98":["C25_mirrored_and_expanded"],"S99":["C12_same_scheduling_same_assignment","C12_other_schedulings_unaffected"],
}
NOTE = {}
TIGHT = {
"S64":"survived the first time; C56_threads added","S90":"survived the first time; C44_workers_differ added","S94":"survived the first time; C56_options_reach_workers and C56_any_ends_session added",
"S95":"survived the first time; C56_greedy and C56_options_reach_workers added","S93":"first time only a worked example failed; C56_threads added","S96":"first time only a worked example failed; C56_critical_sets added",
"S57":"first time only a lemma about the model failed (no claim mentioned the counter); C22_assignments_counted and C22_final_assignments added",
"S67":"first time only lemmas failed (no claim said that an exhausted worker stops); C56_stops_when_exhausted added",
}
try: exec(open('/verif/tools/log_more.py').read())
except FileNotFoundError: pass
out=[]; seen={}
for f in sys.argv[1:]:
    for l in open(f):
        r=json.loads(l); i=r['id'].rstrip('rb')
        seen[i]=r   # later runs replace earlier ones
for i,r in sorted(seen.items()):
    if i[0]=='A' and i not in TOP: TOP[i]=BYFILE[r['edits'][0][0].split('/')[-1][:-5]]
    assert i in TOP,(i,r['definition'],r['edit'],r['claim'],r['result'])
    assert (r['result']=='killed') != (i in HARMLESS),(i,r['result'])
    out.append(dict(id=i,definition=r['definition'],edit=r['edit'],diff=[dict(file=a,old=b,new=c) for a,b,c in r['edits']],claim=r['claim'],
      theorems_failed=sorted({t for v in r['failed'].values() for t in v}), modules_not_built=r['blocked'],
      claims_now_false=TOP[i], theorems_tightened=TIGHT.get(i,"none"), **({"note":NOTE[i]} if i in NOTE else {})))
import os
if os.path.exists('/tmp/seed/auto/res.jsonl'):
    for l in open('/tmp/seed/auto/res.jsonl'):
        r=json.loads(l); i=r['id']
        if r['result']=='invalid': continue   # does not typecheck as a program
        k=r['result']=='killed'
        v='' if k else AUTO.get(i, EQ if ' ++ [] ++ ' in r['new'] else None)
        assert v is not None,i
        out.append(dict(id=i,definition=r['def'],edit='mechanical: '+r['old']+'  =>  '+r['new'],diff=[dict(file='Model/'+r['file'],old=r['old'],new=r['new'])],
          claim='(mechanical edit; whatever depends on this definition)',theorems_failed=[r['name']] if k else (['example'] if r['result']=='killed-by-example' else []),
          theorems_tightened=v if v.startswith('tightened') else 'none', **({} if k else {'note':v})))
open('/verif/seeded/LOG.jsonl','w').write("".join(json.dumps(x)+"\n" for x in out)); print(len(out))
