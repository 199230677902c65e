import Verif.Conformance.Runner
import Verif.Model.Csv
/-
tests/e2e_solutions.rs: the tests of the repository, replayed on the model. Generated by tools/conformance.py.
-/
namespace Wassign.Conf.Solutions
open Reader Main Conf

set_option linter.unusedVariables false

/-! minimal_instance_has_the_exact_expected_output -/
def minimal_instance_has_the_exact_expected_output : Script :=
  obj (.slot "s1".toList) fun x1 =>
  call (.add .slot x1) <|
  obj (.slot "s2".toList) fun x2 =>
  call (.add .slot x2) <|
  obj (.choice "a".toList [(boundsInt 1 1)]) fun x3 =>
  call (.add .choice x3) <|
  obj (.choice "b".toList [(boundsInt 1 1)]) fun x4 =>
  call (.add .choice x4) <|
  obj (.choice "a".toList []) fun x5 =>
  acc (.attr .choice x5 .slot) fun a6 =>
  obj (.slot "s1".toList) fun x7 =>
  expr (.relate "==" (.acc a6) (.obj .slot x7)) fun e8 =>
  call (.addExpr e8) <|
  obj (.choice "b".toList []) fun x9 =>
  acc (.attr .choice x9 .slot) fun a10 =>
  obj (.slot "s2".toList) fun x11 =>
  expr (.relate "==" (.acc a10) (.obj .slot x11)) fun e12 =>
  call (.addExpr e12) <|
  obj (.chooser "p1".toList ([.int 1, .int 0])) fun x13 =>
  call (.add .chooser x13) <|
  .done
example : printed (run 2 opts minimal_instance_has_the_exact_expected_output) = .inr "\"Choice\", \"Slot\"\n\"a\", \"s1\"\n\"b\", \"s2\"\n\n\"Chooser\", \"s1\", \"s2\"\n\"p1\", \"a\", \"b\"\n\n" := by decide +kernel
/-! two_slot_two_choice_instance_has_a_unique_exact_solution -/
def two_slot_two_choice_instance_has_a_unique_exact_solution : Script :=
  obj (.slot "s1".toList) fun x1 =>
  call (.add .slot x1) <|
  obj (.slot "s2".toList) fun x2 =>
  call (.add .slot x2) <|
  obj (.choice "a".toList [(boundsInt 2 2)]) fun x3 =>
  call (.add .choice x3) <|
  obj (.choice "b".toList [(boundsInt 2 2)]) fun x4 =>
  call (.add .choice x4) <|
  obj (.choice "a".toList []) fun x5 =>
  acc (.attr .choice x5 .slot) fun a6 =>
  obj (.slot "s1".toList) fun x7 =>
  expr (.relate "==" (.acc a6) (.obj .slot x7)) fun e8 =>
  call (.addExpr e8) <|
  obj (.choice "b".toList []) fun x9 =>
  acc (.attr .choice x9 .slot) fun a10 =>
  obj (.slot "s2".toList) fun x11 =>
  expr (.relate "==" (.acc a10) (.obj .slot x11)) fun e12 =>
  call (.addExpr e12) <|
  obj (.chooser "p1".toList ([.int 1, .int 0])) fun x13 =>
  call (.add .chooser x13) <|
  obj (.chooser "p2".toList ([.int 0, .int 1])) fun x14 =>
  call (.add .chooser x14) <|
  .done
example : printed (run 2 opts two_slot_two_choice_instance_has_a_unique_exact_solution) = .inr "\"Choice\", \"Slot\"\n\"a\", \"s1\"\n\"b\", \"s2\"\n\n\"Chooser\", \"s1\", \"s2\"\n\"p1\", \"a\", \"b\"\n\"p2\", \"a\", \"b\"\n\n" := by decide +kernel
/-! unconstrained_multi_slot_instance_still_has_a_unique_optimum -/
def unconstrained_multi_slot_instance_still_has_a_unique_optimum : Script :=
  obj (.slot "s1".toList) fun x1 =>
  call (.add .slot x1) <|
  obj (.slot "s2".toList) fun x2 =>
  call (.add .slot x2) <|
  obj (.choice "a".toList [(boundsInt 1 2)]) fun x3 =>
  call (.add .choice x3) <|
  obj (.choice "b".toList [(boundsInt 1 2)]) fun x4 =>
  call (.add .choice x4) <|
  obj (.choice "c".toList [(boundsInt 1 2)]) fun x5 =>
  call (.add .choice x5) <|
  obj (.chooser "p1".toList ([.int 3, .int 0, .int 2])) fun x6 =>
  call (.add .chooser x6) <|
  obj (.chooser "p2".toList ([.int 0, .int 3, .int 2])) fun x7 =>
  call (.add .chooser x7) <|
  .done
example : printed (run 2 opts unconstrained_multi_slot_instance_still_has_a_unique_optimum) = .inr "\"Choice\", \"Slot\"\n\"a\", \"s1\"\n\"b\", \"s1\"\n\"c\", \"s2\"\n\n\"Chooser\", \"s1\", \"s2\"\n\"p1\", \"a\", \"c\"\n\"p2\", \"b\", \"c\"\n\n" ∨ printed (run 2 opts unconstrained_multi_slot_instance_still_has_a_unique_optimum) = .inr "\"Choice\", \"Slot\"\n\"a\", \"s2\"\n\"b\", \"s2\"\n\"c\", \"s1\"\n\n\"Chooser\", \"s1\", \"s2\"\n\"p1\", \"c\", \"a\"\n\"p2\", \"c\", \"b\"\n\n" := by decide +kernel
/-! multipart_choice_instance_has_the_exact_expected_output -/
def multipart_choice_instance_has_the_exact_expected_output : Script :=
  obj (.slot "s1".toList) fun x1 =>
  call (.add .slot x1) <|
  obj (.slot "s2".toList) fun x2 =>
  call (.add .slot x2) <|
  obj (.slot "s3".toList) fun x3 =>
  call (.add .slot x3) <|
  obj (.slot "s4".toList) fun x4 =>
  call (.add .slot x4) <|
  obj (.choice "intro".toList [(boundsInt 2 2)]) fun x5 =>
  call (.add .choice x5) <|
  obj (.choice "deep".toList [(boundsInt 2 2), (tagInt .parts 2)]) fun x6 =>
  call (.add .choice x6) <|
  obj (.choice "outro".toList [(boundsInt 2 2)]) fun x7 =>
  call (.add .choice x7) <|
  obj (.choice "intro".toList []) fun x8 =>
  acc (.attr .choice x8 .slot) fun a9 =>
  obj (.slot "s1".toList) fun x10 =>
  expr (.relate "==" (.acc a9) (.obj .slot x10)) fun e11 =>
  call (.addExpr e11) <|
  obj (.choice "outro".toList []) fun x12 =>
  acc (.attr .choice x12 .slot) fun a13 =>
  obj (.slot "s4".toList) fun x14 =>
  expr (.relate "==" (.acc a13) (.obj .slot x14)) fun e15 =>
  call (.addExpr e15) <|
  obj (.chooser "p1".toList ([.int 3, .int 2, .int 1])) fun x16 =>
  call (.add .chooser x16) <|
  obj (.chooser "p2".toList ([.int 3, .int 2, .int 1])) fun x17 =>
  call (.add .chooser x17) <|
  .done
example : printed (run 2 opts multipart_choice_instance_has_the_exact_expected_output) = .inr "\"Choice\", \"Slot\"\n\"intro\", \"s1\"\n\"deep\", \"s2\"\n\"[2] deep\", \"s3\"\n\"outro\", \"s4\"\n\n\"Chooser\", \"s1\", \"s2\", \"s3\", \"s4\"\n\"p1\", \"intro\", \"deep\", \"[2] deep\", \"outro\"\n\"p2\", \"intro\", \"deep\", \"[2] deep\", \"outro\"\n\n" := by decide +kernel
/-! optional_choice_can_be_left_unscheduled_in_the_optimal_solution -/
def optional_choice_can_be_left_unscheduled_in_the_optimal_solution : Script :=
  obj (.slot "s1".toList) fun x1 =>
  call (.add .slot x1) <|
  obj (.slot "s2".toList) fun x2 =>
  call (.add .slot x2) <|
  obj (.choice "a".toList [(boundsInt 2 2)]) fun x3 =>
  call (.add .choice x3) <|
  obj (.choice "b".toList [(boundsInt 2 2)]) fun x4 =>
  call (.add .choice x4) <|
  obj (.choice "x".toList [(boundsInt 2 2), optionalTag]) fun x5 =>
  call (.add .choice x5) <|
  obj (.choice "a".toList []) fun x6 =>
  acc (.attr .choice x6 .slot) fun a7 =>
  obj (.slot "s1".toList) fun x8 =>
  expr (.relate "==" (.acc a7) (.obj .slot x8)) fun e9 =>
  call (.addExpr e9) <|
  obj (.choice "b".toList []) fun x10 =>
  acc (.attr .choice x10 .slot) fun a11 =>
  obj (.slot "s2".toList) fun x12 =>
  expr (.relate "==" (.acc a11) (.obj .slot x12)) fun e13 =>
  call (.addExpr e13) <|
  obj (.chooser "p1".toList ([.int 1, .int 0, .int 0])) fun x14 =>
  call (.add .chooser x14) <|
  obj (.chooser "p2".toList ([.int 0, .int 1, .int 0])) fun x15 =>
  call (.add .chooser x15) <|
  .done
example : printed (run 2 opts optional_choice_can_be_left_unscheduled_in_the_optimal_solution) = .inr "\"Choice\", \"Slot\"\n\"a\", \"s1\"\n\"b\", \"s2\"\n\"x\", \"not scheduled\"\n\n\"Chooser\", \"s1\", \"s2\"\n\"p1\", \"a\", \"b\"\n\"p2\", \"a\", \"b\"\n\n" := by decide +kernel
/-! optional_keyword_matches_optional_if_true -/
def optional_keyword_matches_optional_if_true_with_keyword : Script :=
  obj (.slot "s1".toList) fun x1 =>
  call (.add .slot x1) <|
  obj (.slot "s2".toList) fun x2 =>
  call (.add .slot x2) <|
  obj (.choice "a".toList [(boundsInt 2 2)]) fun x3 =>
  call (.add .choice x3) <|
  obj (.choice "b".toList [(boundsInt 2 2)]) fun x4 =>
  call (.add .choice x4) <|
  obj (.choice "x".toList [(boundsInt 2 2), optionalTag]) fun x5 =>
  call (.add .choice x5) <|
  obj (.choice "a".toList []) fun x6 =>
  acc (.attr .choice x6 .slot) fun a7 =>
  obj (.slot "s1".toList) fun x8 =>
  expr (.relate "==" (.acc a7) (.obj .slot x8)) fun e9 =>
  call (.addExpr e9) <|
  obj (.choice "b".toList []) fun x10 =>
  acc (.attr .choice x10 .slot) fun a11 =>
  obj (.slot "s2".toList) fun x12 =>
  expr (.relate "==" (.acc a11) (.obj .slot x12)) fun e13 =>
  call (.addExpr e13) <|
  obj (.chooser "p1".toList ([.int 1, .int 0, .int 0])) fun x14 =>
  call (.add .chooser x14) <|
  obj (.chooser "p2".toList ([.int 0, .int 1, .int 0])) fun x15 =>
  call (.add .chooser x15) <|
  .done
example : (run 2 opts optional_keyword_matches_optional_if_true_with_keyword).isOk = true := by decide +kernel
def optional_keyword_matches_optional_if_true_with_conditional : Script :=
  obj (.slot "s1".toList) fun x1 =>
  call (.add .slot x1) <|
  obj (.slot "s2".toList) fun x2 =>
  call (.add .slot x2) <|
  obj (.choice "a".toList [(boundsInt 2 2)]) fun x3 =>
  call (.add .choice x3) <|
  obj (.choice "b".toList [(boundsInt 2 2)]) fun x4 =>
  call (.add .choice x4) <|
  obj (.choice "x".toList [(boundsInt 2 2), (optionalIf true)]) fun x5 =>
  call (.add .choice x5) <|
  obj (.choice "a".toList []) fun x6 =>
  acc (.attr .choice x6 .slot) fun a7 =>
  obj (.slot "s1".toList) fun x8 =>
  expr (.relate "==" (.acc a7) (.obj .slot x8)) fun e9 =>
  call (.addExpr e9) <|
  obj (.choice "b".toList []) fun x10 =>
  acc (.attr .choice x10 .slot) fun a11 =>
  obj (.slot "s2".toList) fun x12 =>
  expr (.relate "==" (.acc a11) (.obj .slot x12)) fun e13 =>
  call (.addExpr e13) <|
  obj (.chooser "p1".toList ([.int 1, .int 0, .int 0])) fun x14 =>
  call (.add .chooser x14) <|
  obj (.chooser "p2".toList ([.int 0, .int 1, .int 0])) fun x15 =>
  call (.add .chooser x15) <|
  .done
example : (run 2 opts optional_keyword_matches_optional_if_true_with_conditional).isOk = true := by decide +kernel
/-! optional_if_true_matches_optional_behavior -/
def optional_if_true_matches_optional_behavior : Script :=
  obj (.slot "s1".toList) fun x1 =>
  call (.add .slot x1) <|
  obj (.slot "s2".toList) fun x2 =>
  call (.add .slot x2) <|
  obj (.choice "a".toList [(boundsInt 2 2)]) fun x3 =>
  call (.add .choice x3) <|
  obj (.choice "b".toList [(boundsInt 2 2)]) fun x4 =>
  call (.add .choice x4) <|
  obj (.choice "x".toList [(boundsInt 2 2), (optionalIf true)]) fun x5 =>
  call (.add .choice x5) <|
  obj (.choice "a".toList []) fun x6 =>
  acc (.attr .choice x6 .slot) fun a7 =>
  obj (.slot "s1".toList) fun x8 =>
  expr (.relate "==" (.acc a7) (.obj .slot x8)) fun e9 =>
  call (.addExpr e9) <|
  obj (.choice "b".toList []) fun x10 =>
  acc (.attr .choice x10 .slot) fun a11 =>
  obj (.slot "s2".toList) fun x12 =>
  expr (.relate "==" (.acc a11) (.obj .slot x12)) fun e13 =>
  call (.addExpr e13) <|
  obj (.chooser "p1".toList ([.int 1, .int 0, .int 0])) fun x14 =>
  call (.add .chooser x14) <|
  obj (.chooser "p2".toList ([.int 0, .int 1, .int 0])) fun x15 =>
  call (.add .chooser x15) <|
  .done
example : printed (run 2 opts optional_if_true_matches_optional_behavior) = .inr "\"Choice\", \"Slot\"\n\"a\", \"s1\"\n\"b\", \"s2\"\n\"x\", \"not scheduled\"\n\n\"Chooser\", \"s1\", \"s2\"\n\"p1\", \"a\", \"b\"\n\"p2\", \"a\", \"b\"\n\n" := by decide +kernel
/-! optional_if_false_keeps_the_choice_required -/
def optional_if_false_keeps_the_choice_required : Script :=
  obj (.slot "s1".toList) fun x1 =>
  call (.add .slot x1) <|
  obj (.slot "s2".toList) fun x2 =>
  call (.add .slot x2) <|
  obj (.choice "a".toList [(boundsInt 2 2)]) fun x3 =>
  call (.add .choice x3) <|
  obj (.choice "b".toList [(boundsInt 2 2)]) fun x4 =>
  call (.add .choice x4) <|
  obj (.choice "x".toList [(boundsInt 2 2), (optionalIf false)]) fun x5 =>
  call (.add .choice x5) <|
  obj (.choice "a".toList []) fun x6 =>
  acc (.attr .choice x6 .slot) fun a7 =>
  obj (.slot "s1".toList) fun x8 =>
  expr (.relate "==" (.acc a7) (.obj .slot x8)) fun e9 =>
  call (.addExpr e9) <|
  obj (.choice "b".toList []) fun x10 =>
  acc (.attr .choice x10 .slot) fun a11 =>
  obj (.slot "s2".toList) fun x12 =>
  expr (.relate "==" (.acc a11) (.obj .slot x12)) fun e13 =>
  call (.addExpr e13) <|
  obj (.chooser "p1".toList ([.int 1, .int 0, .int 0])) fun x14 =>
  call (.add .chooser x14) <|
  obj (.chooser "p2".toList ([.int 0, .int 1, .int 0])) fun x15 =>
  call (.add .chooser x15) <|
  .done
example : printed (run 2 opts optional_if_false_keeps_the_choice_required) = .inr "" := by decide +kernel
/-! single_thread_and_multi_thread_runs_produce_the_same_exact_output_on_a_stable_instance -/
def single_thread_and_multi_thread_runs_produce_the_same_exact_output_on_a_stable_instance_single_thread : Script :=
  obj (.slot "s1".toList) fun x1 =>
  call (.add .slot x1) <|
  obj (.slot "s2".toList) fun x2 =>
  call (.add .slot x2) <|
  obj (.choice "a".toList [(boundsInt 2 2)]) fun x3 =>
  call (.add .choice x3) <|
  obj (.choice "b".toList [(boundsInt 2 2)]) fun x4 =>
  call (.add .choice x4) <|
  obj (.choice "a".toList []) fun x5 =>
  acc (.attr .choice x5 .slot) fun a6 =>
  obj (.slot "s1".toList) fun x7 =>
  expr (.relate "==" (.acc a6) (.obj .slot x7)) fun e8 =>
  call (.addExpr e8) <|
  obj (.choice "b".toList []) fun x9 =>
  acc (.attr .choice x9 .slot) fun a10 =>
  obj (.slot "s2".toList) fun x11 =>
  expr (.relate "==" (.acc a10) (.obj .slot x11)) fun e12 =>
  call (.addExpr e12) <|
  obj (.chooser "p1".toList ([.int 1, .int 0])) fun x13 =>
  call (.add .chooser x13) <|
  obj (.chooser "p2".toList ([.int 0, .int 1])) fun x14 =>
  call (.add .chooser x14) <|
  .done
example : printed (run 2 { opts with threads := 1 } single_thread_and_multi_thread_runs_produce_the_same_exact_output_on_a_stable_instance_single_thread) = .inr "\"Choice\", \"Slot\"\n\"a\", \"s1\"\n\"b\", \"s2\"\n\n\"Chooser\", \"s1\", \"s2\"\n\"p1\", \"a\", \"b\"\n\"p2\", \"a\", \"b\"\n\n" := by decide +kernel
def single_thread_and_multi_thread_runs_produce_the_same_exact_output_on_a_stable_instance_multi_thread : Script :=
  obj (.slot "s1".toList) fun x1 =>
  call (.add .slot x1) <|
  obj (.slot "s2".toList) fun x2 =>
  call (.add .slot x2) <|
  obj (.choice "a".toList [(boundsInt 2 2)]) fun x3 =>
  call (.add .choice x3) <|
  obj (.choice "b".toList [(boundsInt 2 2)]) fun x4 =>
  call (.add .choice x4) <|
  obj (.choice "a".toList []) fun x5 =>
  acc (.attr .choice x5 .slot) fun a6 =>
  obj (.slot "s1".toList) fun x7 =>
  expr (.relate "==" (.acc a6) (.obj .slot x7)) fun e8 =>
  call (.addExpr e8) <|
  obj (.choice "b".toList []) fun x9 =>
  acc (.attr .choice x9 .slot) fun a10 =>
  obj (.slot "s2".toList) fun x11 =>
  expr (.relate "==" (.acc a10) (.obj .slot x11)) fun e12 =>
  call (.addExpr e12) <|
  obj (.chooser "p1".toList ([.int 1, .int 0])) fun x13 =>
  call (.add .chooser x13) <|
  obj (.chooser "p2".toList ([.int 0, .int 1])) fun x14 =>
  call (.add .chooser x14) <|
  .done
example : (run 2 { opts with threads := 4 } single_thread_and_multi_thread_runs_produce_the_same_exact_output_on_a_stable_instance_multi_thread).isOk = true := by decide +kernel
/-! any_mode_still_returns_a_valid_public_output_shape -/
def any_mode_still_returns_a_valid_public_output_shape : Script :=
  obj (.slot "s1".toList) fun x1 =>
  call (.add .slot x1) <|
  obj (.slot "s2".toList) fun x2 =>
  call (.add .slot x2) <|
  obj (.choice "a".toList [(boundsInt 1 2)]) fun x3 =>
  call (.add .choice x3) <|
  obj (.choice "b".toList [(boundsInt 1 2)]) fun x4 =>
  call (.add .choice x4) <|
  obj (.chooser "p1".toList ([.int 1, .int 1])) fun x5 =>
  call (.add .chooser x5) <|
  obj (.chooser "p2".toList ([.int 1, .int 1])) fun x6 =>
  call (.add .chooser x6) <|
  .done
example : (run 2 { opts with any := true } any_mode_still_returns_a_valid_public_output_shape).isOk = true := by decide +kernel
/-! infeasible_capacity_mismatch_produces_no_solution -/
def infeasible_capacity_mismatch_produces_no_solution : Script :=
  obj (.slot "s1".toList) fun x1 =>
  call (.add .slot x1) <|
  obj (.slot "s2".toList) fun x2 =>
  call (.add .slot x2) <|
  obj (.choice "a".toList [(boundsInt 2 2)]) fun x3 =>
  call (.add .choice x3) <|
  obj (.choice "b".toList [(boundsInt 2 2)]) fun x4 =>
  call (.add .choice x4) <|
  obj (.chooser "p1".toList ([.int 0, .int 0])) fun x5 =>
  call (.add .chooser x5) <|
  .done
example : printed (run 2 opts infeasible_capacity_mismatch_produces_no_solution) = .inr "" := by decide +kernel
/-! infeasible_constraint_system_produces_no_solution -/
def infeasible_constraint_system_produces_no_solution : Script :=
  obj (.slot "s1".toList) fun x1 =>
  call (.add .slot x1) <|
  obj (.slot "s2".toList) fun x2 =>
  call (.add .slot x2) <|
  obj (.choice "a".toList [(boundsInt 1 1)]) fun x3 =>
  call (.add .choice x3) <|
  obj (.choice "b".toList [(boundsInt 1 1)]) fun x4 =>
  call (.add .choice x4) <|
  obj (.choice "a".toList []) fun x5 =>
  acc (.attr .choice x5 .slot) fun a6 =>
  obj (.choice "b".toList []) fun x7 =>
  acc (.attr .choice x7 .slot) fun a8 =>
  expr (.relate "==" (.acc a6) (.acc a8)) fun e9 =>
  call (.addExpr e9) <|
  obj (.chooser "p1".toList ([.int 0, .int 0])) fun x10 =>
  call (.add .chooser x10) <|
  .done
example : printed (run 2 opts infeasible_constraint_system_produces_no_solution) = .inr "" := by decide +kernel
/-! low_timeout_exits_cleanly_on_a_trivial_instance -/
def low_timeout_exits_cleanly_on_a_trivial_instance : Script :=
  obj (.slot "s1".toList) fun x1 =>
  call (.add .slot x1) <|
  obj (.slot "s2".toList) fun x2 =>
  call (.add .slot x2) <|
  obj (.choice "a".toList [(boundsInt 1 1)]) fun x3 =>
  call (.add .choice x3) <|
  obj (.choice "b".toList [(boundsInt 1 1)]) fun x4 =>
  call (.add .choice x4) <|
  obj (.choice "a".toList []) fun x5 =>
  acc (.attr .choice x5 .slot) fun a6 =>
  obj (.slot "s1".toList) fun x7 =>
  expr (.relate "==" (.acc a6) (.obj .slot x7)) fun e8 =>
  call (.addExpr e8) <|
  obj (.choice "b".toList []) fun x9 =>
  acc (.attr .choice x9 .slot) fun a10 =>
  obj (.slot "s2".toList) fun x11 =>
  expr (.relate "==" (.acc a10) (.obj .slot x11)) fun e12 =>
  call (.addExpr e12) <|
  obj (.chooser "p1".toList ([.int 1, .int 0])) fun x13 =>
  call (.add .chooser x13) <|
  .done
example : printed (run 0 opts low_timeout_exits_cleanly_on_a_trivial_instance) = .inr "" := by decide +kernel
/-! split_input_across_files_produces_the_same_exact_solution_as_single_file_input -/
def split_input_across_files_produces_the_same_exact_solution_as_single_file_input_single_file : Script :=
  obj (.slot "s1".toList) fun x1 =>
  call (.add .slot x1) <|
  obj (.slot "s2".toList) fun x2 =>
  call (.add .slot x2) <|
  obj (.choice "a".toList [(boundsInt 2 2)]) fun x3 =>
  call (.add .choice x3) <|
  obj (.choice "b".toList [(boundsInt 2 2)]) fun x4 =>
  call (.add .choice x4) <|
  obj (.choice "a".toList []) fun x5 =>
  acc (.attr .choice x5 .slot) fun a6 =>
  obj (.slot "s1".toList) fun x7 =>
  expr (.relate "==" (.acc a6) (.obj .slot x7)) fun e8 =>
  call (.addExpr e8) <|
  obj (.choice "b".toList []) fun x9 =>
  acc (.attr .choice x9 .slot) fun a10 =>
  obj (.slot "s2".toList) fun x11 =>
  expr (.relate "==" (.acc a10) (.obj .slot x11)) fun e12 =>
  call (.addExpr e12) <|
  obj (.chooser "p1".toList ([.int 1, .int 0])) fun x13 =>
  call (.add .chooser x13) <|
  obj (.chooser "p2".toList ([.int 0, .int 1])) fun x14 =>
  call (.add .chooser x14) <|
  .done
example : printed (run 2 opts split_input_across_files_produces_the_same_exact_solution_as_single_file_input_single_file) = .inr "\"Choice\", \"Slot\"\n\"a\", \"s1\"\n\"b\", \"s2\"\n\n\"Chooser\", \"s1\", \"s2\"\n\"p1\", \"a\", \"b\"\n\"p2\", \"a\", \"b\"\n\n" := by decide +kernel
def split_input_across_files_produces_the_same_exact_solution_as_single_file_input_split_files : Script :=
  obj (.slot "s1".toList) fun x1 =>
  call (.add .slot x1) <|
  obj (.slot "s2".toList) fun x2 =>
  call (.add .slot x2) <|
  obj (.choice "a".toList [(boundsInt 2 2)]) fun x3 =>
  call (.add .choice x3) <|
  obj (.choice "b".toList [(boundsInt 2 2)]) fun x4 =>
  call (.add .choice x4) <|
  obj (.choice "a".toList []) fun x5 =>
  acc (.attr .choice x5 .slot) fun a6 =>
  obj (.slot "s1".toList) fun x7 =>
  expr (.relate "==" (.acc a6) (.obj .slot x7)) fun e8 =>
  call (.addExpr e8) <|
  obj (.choice "b".toList []) fun x9 =>
  acc (.attr .choice x9 .slot) fun a10 =>
  obj (.slot "s2".toList) fun x11 =>
  expr (.relate "==" (.acc a10) (.obj .slot x11)) fun e12 =>
  call (.addExpr e12) <|
  obj (.chooser "p1".toList ([.int 1, .int 0])) fun x13 =>
  call (.add .chooser x13) <|
  obj (.chooser "p2".toList ([.int 0, .int 1])) fun x14 =>
  call (.add .chooser x14) <|
  .done
example : (run 2 opts split_input_across_files_produces_the_same_exact_solution_as_single_file_input_split_files).isOk = true := by decide +kernel

end Wassign.Conf.Solutions
