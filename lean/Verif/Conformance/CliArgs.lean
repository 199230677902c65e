import Verif.Conformance.Runner
import Verif.Model.Csv
/-
tests/e2e_cli_args.rs: the tests of the repository, replayed on the model. Generated by tools/conformance.py.
-/
namespace Wassign.Conf.CliArgs
open Reader Main Conf

set_option linter.unusedVariables false

/-! stdin_is_used_when_no_input_flag_is_given -/
def stdin_is_used_when_no_input_flag_is_given : Script :=
  obj (.slot "s".toList) fun x1 =>
  call (.add .slot x1) <|
  obj (.choice "e".toList [(boundsInt 1 1)]) fun x2 =>
  call (.add .choice x2) <|
  obj (.chooser "p".toList ([.int 1])) fun x3 =>
  call (.add .chooser x3) <|
  .done
example : printed (run 2 opts stdin_is_used_when_no_input_flag_is_given) = .inr "\"Chooser\", \"s\"\n\"p\", \"e\"\n\n" := by decide +kernel
/-! single_input_file_is_read -/
def single_input_file_is_read : Script :=
  obj (.slot "s1".toList) fun x1 =>
  call (.add .slot x1) <|
  obj (.slot "s2".toList) fun x2 =>
  call (.add .slot x2) <|
  obj (.choice "c1".toList [(boundsInt 2 2)]) fun x3 =>
  call (.add .choice x3) <|
  obj (.choice "c2".toList [(boundsInt 2 2)]) fun x4 =>
  call (.add .choice x4) <|
  acc (.attr .choice x3 .slot) fun a5 =>
  obj (.slot "s1".toList) fun x6 =>
  expr (.relate "==" (.acc a5) (.obj .slot x6)) fun e7 =>
  call (.addExpr e7) <|
  acc (.attr .choice x4 .slot) fun a8 =>
  obj (.slot "s2".toList) fun x9 =>
  expr (.relate "==" (.acc a8) (.obj .slot x9)) fun e10 =>
  call (.addExpr e10) <|
  obj (.chooser "p1".toList ([.int 0, .int 1])) fun x11 =>
  call (.add .chooser x11) <|
  obj (.chooser "p2".toList ([.int 1, .int 0])) fun x12 =>
  call (.add .chooser x12) <|
  .done
example : printed (run 2 opts single_input_file_is_read) = .inr "\"Choice\", \"Slot\"\n\"c1\", \"s1\"\n\"c2\", \"s2\"\n\n\"Chooser\", \"s1\", \"s2\"\n\"p1\", \"c1\", \"c2\"\n\"p2\", \"c1\", \"c2\"\n\n" := by decide +kernel
/-! multiple_input_files_are_concatenated_in_argument_order -/
def multiple_input_files_are_concatenated_in_argument_order : Script :=
  obj (.slot "s1".toList) fun x1 =>
  call (.add .slot x1) <|
  obj (.slot "s2".toList) fun x2 =>
  call (.add .slot x2) <|
  obj (.choice "c1".toList [(boundsInt 2 2)]) fun x3 =>
  call (.add .choice x3) <|
  obj (.choice "c2".toList [(boundsInt 2 2)]) fun x4 =>
  call (.add .choice x4) <|
  acc (.attr .choice x3 .slot) fun a5 =>
  obj (.slot "s1".toList) fun x6 =>
  expr (.relate "==" (.acc a5) (.obj .slot x6)) fun e7 =>
  call (.addExpr e7) <|
  acc (.attr .choice x4 .slot) fun a8 =>
  obj (.slot "s2".toList) fun x9 =>
  expr (.relate "==" (.acc a8) (.obj .slot x9)) fun e10 =>
  call (.addExpr e10) <|
  obj (.chooser "p1".toList ([.int 0, .int 1])) fun x11 =>
  call (.add .chooser x11) <|
  obj (.chooser "p2".toList ([.int 1, .int 0])) fun x12 =>
  call (.add .chooser x12) <|
  .done
example : printed (run 2 opts multiple_input_files_are_concatenated_in_argument_order) = .inr "\"Choice\", \"Slot\"\n\"c1\", \"s1\"\n\"c2\", \"s2\"\n\n\"Chooser\", \"s1\", \"s2\"\n\"p1\", \"c1\", \"c2\"\n\"p2\", \"c1\", \"c2\"\n\n" := by decide +kernel
-- missing_input_file_is_reported_as_an_error: no input file (C63)
-- unreadable_input_file_is_reported_as_an_error: no input file (C63)
-- invalid_timeout_string_is_rejected: command line (C74)
/-! compound_timeout_string_is_accepted -/
def compound_timeout_string_is_accepted : Script :=
  obj (.slot "s".toList) fun x1 =>
  call (.add .slot x1) <|
  obj (.choice "e".toList [(boundsInt 1 1)]) fun x2 =>
  call (.add .choice x2) <|
  obj (.chooser "p".toList ([.int 1])) fun x3 =>
  call (.add .chooser x3) <|
  .done
example : printed (run 2 opts compound_timeout_string_is_accepted) = .inr "\"Chooser\", \"s\"\n\"p\", \"e\"\n\n" := by decide +kernel
-- invalid_critical_set_timeout_string_is_rejected: command line (C74)
/-! zero_timeout_still_exits_cleanly -/
def zero_timeout_still_exits_cleanly : Script :=
  obj (.slot "s".toList) fun x1 =>
  call (.add .slot x1) <|
  obj (.choice "e".toList [(boundsInt 1 1)]) fun x2 =>
  call (.add .choice x2) <|
  obj (.chooser "p".toList ([.int 1])) fun x3 =>
  call (.add .chooser x3) <|
  .done
example : printed (run 0 opts zero_timeout_still_exits_cleanly) = .inr "" := by decide +kernel
-- invalid_thread_count_value_is_rejected: command line (clap)
-- invalid_preference_exponent_value_is_rejected: command line (clap)
-- invalid_max_neighbors_value_is_rejected: command line (clap)
/-! greedy_mode_is_accepted_and_solves_a_deterministic_instance -/
def greedy_mode_is_accepted_and_solves_a_deterministic_instance : Script :=
  obj (.slot "s1".toList) fun x1 =>
  call (.add .slot x1) <|
  obj (.slot "s2".toList) fun x2 =>
  call (.add .slot x2) <|
  obj (.choice "c1".toList [(boundsInt 2 2)]) fun x3 =>
  call (.add .choice x3) <|
  obj (.choice "c2".toList [(boundsInt 2 2)]) fun x4 =>
  call (.add .choice x4) <|
  acc (.attr .choice x3 .slot) fun a5 =>
  obj (.slot "s1".toList) fun x6 =>
  expr (.relate "==" (.acc a5) (.obj .slot x6)) fun e7 =>
  call (.addExpr e7) <|
  acc (.attr .choice x4 .slot) fun a8 =>
  obj (.slot "s2".toList) fun x9 =>
  expr (.relate "==" (.acc a8) (.obj .slot x9)) fun e10 =>
  call (.addExpr e10) <|
  obj (.chooser "p1".toList ([.int 0, .int 1])) fun x11 =>
  call (.add .chooser x11) <|
  obj (.chooser "p2".toList ([.int 1, .int 0])) fun x12 =>
  call (.add .chooser x12) <|
  .done
example : printed (run 2 { opts with greedy := true } greedy_mode_is_accepted_and_solves_a_deterministic_instance) = .inr "\"Choice\", \"Slot\"\n\"c1\", \"s1\"\n\"c2\", \"s2\"\n\n\"Chooser\", \"s1\", \"s2\"\n\"p1\", \"c1\", \"c2\"\n\"p2\", \"c1\", \"c2\"\n\n" := by decide +kernel
/-! no_critical_sets_flag_is_accepted_and_preserves_correctness_on_a_deterministic_instance -/
def no_critical_sets_flag_is_accepted_and_preserves_correctness_on_a_deterministic_instance : Script :=
  obj (.slot "s1".toList) fun x1 =>
  call (.add .slot x1) <|
  obj (.slot "s2".toList) fun x2 =>
  call (.add .slot x2) <|
  obj (.choice "c1".toList [(boundsInt 2 2)]) fun x3 =>
  call (.add .choice x3) <|
  obj (.choice "c2".toList [(boundsInt 2 2)]) fun x4 =>
  call (.add .choice x4) <|
  acc (.attr .choice x3 .slot) fun a5 =>
  obj (.slot "s1".toList) fun x6 =>
  expr (.relate "==" (.acc a5) (.obj .slot x6)) fun e7 =>
  call (.addExpr e7) <|
  acc (.attr .choice x4 .slot) fun a8 =>
  obj (.slot "s2".toList) fun x9 =>
  expr (.relate "==" (.acc a8) (.obj .slot x9)) fun e10 =>
  call (.addExpr e10) <|
  obj (.chooser "p1".toList ([.int 0, .int 1])) fun x11 =>
  call (.add .chooser x11) <|
  obj (.chooser "p2".toList ([.int 1, .int 0])) fun x12 =>
  call (.add .chooser x12) <|
  .done
example : printed (run 2 { opts with noCs := true } no_critical_sets_flag_is_accepted_and_preserves_correctness_on_a_deterministic_instance) = .inr "\"Choice\", \"Slot\"\n\"c1\", \"s1\"\n\"c2\", \"s2\"\n\n\"Chooser\", \"s1\", \"s2\"\n\"p1\", \"c1\", \"c2\"\n\"p2\", \"c1\", \"c2\"\n\n" := by decide +kernel
/-! no_critical_set_simplification_flag_is_accepted_and_preserves_correctness -/
def no_critical_set_simplification_flag_is_accepted_and_preserves_correctness : Script :=
  obj (.slot "s1".toList) fun x1 =>
  call (.add .slot x1) <|
  obj (.slot "s2".toList) fun x2 =>
  call (.add .slot x2) <|
  obj (.choice "c1".toList [(boundsInt 2 2)]) fun x3 =>
  call (.add .choice x3) <|
  obj (.choice "c2".toList [(boundsInt 2 2)]) fun x4 =>
  call (.add .choice x4) <|
  acc (.attr .choice x3 .slot) fun a5 =>
  obj (.slot "s1".toList) fun x6 =>
  expr (.relate "==" (.acc a5) (.obj .slot x6)) fun e7 =>
  call (.addExpr e7) <|
  acc (.attr .choice x4 .slot) fun a8 =>
  obj (.slot "s2".toList) fun x9 =>
  expr (.relate "==" (.acc a8) (.obj .slot x9)) fun e10 =>
  call (.addExpr e10) <|
  obj (.chooser "p1".toList ([.int 0, .int 1])) fun x11 =>
  call (.add .chooser x11) <|
  obj (.chooser "p2".toList ([.int 1, .int 0])) fun x12 =>
  call (.add .chooser x12) <|
  .done
example : printed (run 2 { opts with noCsSimp := true } no_critical_set_simplification_flag_is_accepted_and_preserves_correctness) = .inr "\"Choice\", \"Slot\"\n\"c1\", \"s1\"\n\"c2\", \"s2\"\n\n\"Chooser\", \"s1\", \"s2\"\n\"p1\", \"c1\", \"c2\"\n\"p2\", \"c1\", \"c2\"\n\n" := by decide +kernel
/-! single_thread_mode_preserves_the_public_solution_on_a_stable_instance -/
def single_thread_mode_preserves_the_public_solution_on_a_stable_instance : Script :=
  obj (.slot "s1".toList) fun x1 =>
  call (.add .slot x1) <|
  obj (.slot "s2".toList) fun x2 =>
  call (.add .slot x2) <|
  obj (.choice "c1".toList [(boundsInt 2 2)]) fun x3 =>
  call (.add .choice x3) <|
  obj (.choice "c2".toList [(boundsInt 2 2)]) fun x4 =>
  call (.add .choice x4) <|
  acc (.attr .choice x3 .slot) fun a5 =>
  obj (.slot "s1".toList) fun x6 =>
  expr (.relate "==" (.acc a5) (.obj .slot x6)) fun e7 =>
  call (.addExpr e7) <|
  acc (.attr .choice x4 .slot) fun a8 =>
  obj (.slot "s2".toList) fun x9 =>
  expr (.relate "==" (.acc a8) (.obj .slot x9)) fun e10 =>
  call (.addExpr e10) <|
  obj (.chooser "p1".toList ([.int 0, .int 1])) fun x11 =>
  call (.add .chooser x11) <|
  obj (.chooser "p2".toList ([.int 1, .int 0])) fun x12 =>
  call (.add .chooser x12) <|
  .done
example : printed (run 2 { opts with threads := 1 } single_thread_mode_preserves_the_public_solution_on_a_stable_instance) = .inr "\"Choice\", \"Slot\"\n\"c1\", \"s1\"\n\"c2\", \"s2\"\n\n\"Chooser\", \"s1\", \"s2\"\n\"p1\", \"c1\", \"c2\"\n\"p2\", \"c1\", \"c2\"\n\n" := by decide +kernel
/-! low_max_neighbors_flag_is_accepted_and_still_solves_a_deterministic_instance -/
def low_max_neighbors_flag_is_accepted_and_still_solves_a_deterministic_instance : Script :=
  obj (.slot "s1".toList) fun x1 =>
  call (.add .slot x1) <|
  obj (.slot "s2".toList) fun x2 =>
  call (.add .slot x2) <|
  obj (.choice "c1".toList [(boundsInt 2 2)]) fun x3 =>
  call (.add .choice x3) <|
  obj (.choice "c2".toList [(boundsInt 2 2)]) fun x4 =>
  call (.add .choice x4) <|
  acc (.attr .choice x3 .slot) fun a5 =>
  obj (.slot "s1".toList) fun x6 =>
  expr (.relate "==" (.acc a5) (.obj .slot x6)) fun e7 =>
  call (.addExpr e7) <|
  acc (.attr .choice x4 .slot) fun a8 =>
  obj (.slot "s2".toList) fun x9 =>
  expr (.relate "==" (.acc a8) (.obj .slot x9)) fun e10 =>
  call (.addExpr e10) <|
  obj (.chooser "p1".toList ([.int 0, .int 1])) fun x11 =>
  call (.add .chooser x11) <|
  obj (.chooser "p2".toList ([.int 1, .int 0])) fun x12 =>
  call (.add .chooser x12) <|
  .done
example : printed (run 2 { opts with maxNeighbors := 1 } low_max_neighbors_flag_is_accepted_and_still_solves_a_deterministic_instance) = .inr "\"Choice\", \"Slot\"\n\"c1\", \"s1\"\n\"c2\", \"s2\"\n\n\"Chooser\", \"s1\", \"s2\"\n\"p1\", \"c1\", \"c2\"\n\"p2\", \"c1\", \"c2\"\n\n" := by decide +kernel

end Wassign.Conf.CliArgs
