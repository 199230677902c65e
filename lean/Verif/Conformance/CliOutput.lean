import Verif.Conformance.Runner
import Verif.Model.Csv
/-
tests/e2e_cli_output.rs: the tests of the repository, replayed on the model. Generated by tools/conformance.py.
-/
namespace Wassign.Conf.CliOutput
open Reader Main Conf

set_option linter.unusedVariables false

/-! stdout_contains_only_assignment_csv_for_single_slot_instances -/
def stdout_contains_only_assignment_csv_for_single_slot_instances : Script :=
  obj (.slot "s".toList) fun x1 =>
  call (.add .slot x1) <|
  obj (.choice "e".toList [(boundsInt 1 1)]) fun x2 =>
  call (.add .choice x2) <|
  obj (.chooser "p".toList ([.int 1])) fun x3 =>
  call (.add .chooser x3) <|
  .done
example : printed (run 2 opts stdout_contains_only_assignment_csv_for_single_slot_instances) = .inr "\"Chooser\", \"s\"\n\"p\", \"e\"\n\n" := by decide +kernel
/-! stdout_contains_scheduling_then_assignment_for_multi_slot_instances -/
def stdout_contains_scheduling_then_assignment_for_multi_slot_instances : Script :=
  obj (.slot "s1".toList) fun x1 =>
  call (.add .slot x1) <|
  obj (.slot "s2".toList) fun x2 =>
  call (.add .slot x2) <|
  obj (.choice "c1".toList [(boundsInt 2 2)]) fun x3 =>
  call (.add .choice x3) <|
  obj (.choice "c2".toList [(boundsInt 2 2)]) fun x4 =>
  call (.add .choice x4) <|
  obj (.choice "c1".toList []) fun x5 =>
  acc (.attr .choice x5 .slot) fun a6 =>
  obj (.slot "s1".toList) fun x7 =>
  expr (.relate "==" (.acc a6) (.obj .slot x7)) fun e8 =>
  call (.addExpr e8) <|
  obj (.choice "c2".toList []) fun x9 =>
  acc (.attr .choice x9 .slot) fun a10 =>
  obj (.slot "s2".toList) fun x11 =>
  expr (.relate "==" (.acc a10) (.obj .slot x11)) fun e12 =>
  call (.addExpr e12) <|
  obj (.chooser "p1".toList ([.int 0, .int 1])) fun x13 =>
  call (.add .chooser x13) <|
  obj (.chooser "p2".toList ([.int 1, .int 0])) fun x14 =>
  call (.add .chooser x14) <|
  .done
example : printed (run 2 opts stdout_contains_scheduling_then_assignment_for_multi_slot_instances) = .inr "\"Choice\", \"Slot\"\n\"c1\", \"s1\"\n\"c2\", \"s2\"\n\n\"Chooser\", \"s1\", \"s2\"\n\"p1\", \"c1\", \"c2\"\n\"p2\", \"c1\", \"c2\"\n\n" := by decide +kernel
/-! output_prefix_writes_both_csv_files_for_multi_slot_instances -/
def output_prefix_writes_both_csv_files_for_multi_slot_instances : Script :=
  obj (.slot "east".toList) fun x1 =>
  call (.add .slot x1) <|
  obj (.slot "west".toList) fun x2 =>
  call (.add .slot x2) <|
  obj (.choice "alpha".toList [(boundsInt 2 2)]) fun x3 =>
  call (.add .choice x3) <|
  obj (.choice "beta".toList [(boundsInt 2 2)]) fun x4 =>
  call (.add .choice x4) <|
  obj (.choice "alpha".toList []) fun x5 =>
  acc (.attr .choice x5 .slot) fun a6 =>
  obj (.slot "east".toList) fun x7 =>
  expr (.relate "==" (.acc a6) (.obj .slot x7)) fun e8 =>
  call (.addExpr e8) <|
  obj (.choice "beta".toList []) fun x9 =>
  acc (.attr .choice x9 .slot) fun a10 =>
  obj (.slot "west".toList) fun x11 =>
  expr (.relate "==" (.acc a10) (.obj .slot x11)) fun e12 =>
  call (.addExpr e12) <|
  obj (.chooser "p1".toList ([.int 0, .int 1])) fun x13 =>
  call (.add .chooser x13) <|
  obj (.chooser "p2".toList ([.int 1, .int 0])) fun x14 =>
  call (.add .chooser x14) <|
  .done
example : run 2 { opts with outputFile := some [] } output_prefix_writes_both_csv_files_for_multi_slot_instances = .ok (.tables (some "\"Choice\", \"Slot\"\n\"alpha\", \"east\"\n\"beta\", \"west\"".toList) "\"Chooser\", \"east\", \"west\"\n\"p1\", \"alpha\", \"beta\"\n\"p2\", \"alpha\", \"beta\"".toList) := by decide +kernel
/-! output_prefix_writes_only_assignment_csv_for_single_slot_instances -/
def output_prefix_writes_only_assignment_csv_for_single_slot_instances : Script :=
  obj (.slot "s".toList) fun x1 =>
  call (.add .slot x1) <|
  obj (.choice "e".toList [(boundsInt 1 1)]) fun x2 =>
  call (.add .choice x2) <|
  obj (.chooser "p".toList ([.int 1])) fun x3 =>
  call (.add .chooser x3) <|
  .done
example : run 2 { opts with outputFile := some [] } output_prefix_writes_only_assignment_csv_for_single_slot_instances = .ok (.tables none "\"Chooser\", \"s\"\n\"p\", \"e\"".toList) := by decide +kernel
/-! infeasible_instance_produces_no_stdout_csv -/
def infeasible_instance_produces_no_stdout_csv : Script :=
  obj (.slot "only".toList) fun x1 =>
  call (.add .slot x1) <|
  obj (.choice "alpha".toList [(boundsInt 1 1)]) fun x2 =>
  call (.add .choice x2) <|
  obj (.choice "beta".toList [(boundsInt 1 1)]) fun x3 =>
  call (.add .choice x3) <|
  obj (.chooser "p1".toList ([.int 0, .int 1])) fun x4 =>
  call (.add .chooser x4) <|
  .done
example : printed (run 2 opts infeasible_instance_produces_no_stdout_csv) = .inr "" := by decide +kernel
/-! infeasible_instance_with_output_prefix_does_not_write_solution_files -/
def infeasible_instance_with_output_prefix_does_not_write_solution_files : Script :=
  obj (.slot "only".toList) fun x1 =>
  call (.add .slot x1) <|
  obj (.choice "alpha".toList [(boundsInt 1 1)]) fun x2 =>
  call (.add .choice x2) <|
  obj (.choice "beta".toList [(boundsInt 1 1)]) fun x3 =>
  call (.add .choice x3) <|
  obj (.chooser "p1".toList ([.int 0, .int 1])) fun x4 =>
  call (.add .chooser x4) <|
  .done
example : printed (run 2 { opts with outputFile := some "PREFIX".toList } infeasible_instance_with_output_prefix_does_not_write_solution_files) = .inr "" := by decide +kernel
/-! input_parse_failure_is_reported_on_stderr -/
def input_parse_failure_is_reported_on_stderr : Script :=
  obj (.slot "only".toList) fun x1 =>
  call (.add .slot x1) <|
  obj (.choice "task".toList [(boundsInt 1 1)]) fun x2 =>
  call (.add .choice x2) <|
  obj (.chooser "p1".toList ([.int 0])) fun x3 =>
  .fail
example : rejects (run 2 opts input_parse_failure_is_reported_on_stderr) = true := by decide +kernel
/-! unsatisfiable_constraints_are_reported_as_input_errors -/
def unsatisfiable_constraints_are_reported_as_input_errors : Script :=
  obj (.slot "s1".toList) fun x1 =>
  call (.add .slot x1) <|
  obj (.slot "s2".toList) fun x2 =>
  call (.add .slot x2) <|
  obj (.choice "c1".toList [(boundsInt 1 1)]) fun x3 =>
  call (.add .choice x3) <|
  obj (.chooser "p1".toList ([.int 0])) fun x4 =>
  call (.add .chooser x4) <|
  obj (.slot "s1".toList) fun x5 =>
  acc (.attr .slot x5 .choices) fun a6 =>
  obj (.slot "s2".toList) fun x7 =>
  acc (.attr .slot x7 .choices) fun a8 =>
  expr (.relate "==" (.acc a6) (.acc a8)) fun e9 =>
  call (.addExpr e9) <|
  .done
example : rejects (run 2 opts unsatisfiable_constraints_are_reported_as_input_errors) = true := by decide +kernel
-- missing_input_file_failure_is_reported_on_stderr: no input file (C63)
/-! generated_part_names_are_hidden_in_csv_output -/
def generated_part_names_are_hidden_in_csv_output : Script :=
  obj (.slot "s1".toList) fun x1 =>
  call (.add .slot x1) <|
  obj (.slot "s2".toList) fun x2 =>
  call (.add .slot x2) <|
  obj (.choice "c1".toList [(boundsInt 2 2)]) fun x3 =>
  call (.add .choice x3) <|
  obj (.choice "c2".toList [(boundsInt 2 2)]) fun x4 =>
  call (.add .choice x4) <|
  obj (.choice "c3".toList [(boundsInt 2 2), (tagInt .parts 2)]) fun x5 =>
  call (.add .choice x5) <|
  obj (.choice "c1".toList []) fun x6 =>
  acc (.attr .choice x6 .slot) fun a7 =>
  obj (.slot "s2".toList) fun x8 =>
  expr (.relate "==" (.acc a7) (.obj .slot x8)) fun e9 =>
  call (.addExpr e9) <|
  obj (.choice "c2".toList []) fun x10 =>
  acc (.attr .choice x10 .slot) fun a11 =>
  obj (.slot "s1".toList) fun x12 =>
  expr (.relate "==" (.acc a11) (.obj .slot x12)) fun e13 =>
  call (.addExpr e13) <|
  obj (.chooser "p1".toList ([.int 100, .int 0, .int 100])) fun x14 =>
  call (.add .chooser x14) <|
  obj (.chooser "p2".toList ([.int 100, .int 0, .int 100])) fun x15 =>
  call (.add .chooser x15) <|
  obj (.chooser "p3".toList ([.int 0, .int 100, .int 100])) fun x16 =>
  call (.add .chooser x16) <|
  obj (.chooser "p4".toList ([.int 0, .int 100, .int 100])) fun x17 =>
  call (.add .chooser x17) <|
  .done
example : (run 2 opts generated_part_names_are_hidden_in_csv_output).isOk = true := by decide +kernel
-- output_write_failure_is_reported_as_an_error: a failing write (C63)

end Wassign.Conf.CliOutput
