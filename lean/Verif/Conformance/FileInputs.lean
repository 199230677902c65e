import Verif.Conformance.Runner
import Verif.Model.Csv
/-
tests/e2e_file_inputs.rs: the tests of the repository, replayed on the model. Generated by tools/conformance.py.
-/
namespace Wassign.Conf.FileInputs
open Reader Main Conf

set_option linter.unusedVariables false

/-! read_csv_with_default_separator_can_build_a_complete_problem -/
def read_csv_with_default_separator_can_build_a_complete_problem : Script :=
  obj (.slot "s1".toList) fun x1 =>
  call (.add .slot x1) <|
  obj (.slot "s2".toList) fun x2 =>
  call (.add .slot x2) <|
  obj (.choice "alpha".toList [(boundsInt 2 2)]) fun x3 =>
  call (.add .choice x3) <|
  acc (.attr .choice x3 .slot) fun a4 =>
  obj (.slot "s1".toList) fun x5 =>
  expr (.relate "==" (.acc a4) (.obj .slot x5)) fun e6 =>
  call (.addExpr e6) <|
  obj (.choice "beta".toList [(boundsInt 2 2)]) fun x7 =>
  call (.add .choice x7) <|
  acc (.attr .choice x7 .slot) fun a8 =>
  obj (.slot "s2".toList) fun x9 =>
  expr (.relate "==" (.acc a8) (.obj .slot x9)) fun e10 =>
  call (.addExpr e10) <|
  obj (.chooser "p1".toList ([.str "0".toList, .str "1".toList])) fun x11 =>
  call (.add .chooser x11) <|
  obj (.chooser "p2".toList ([.str "1".toList, .str "0".toList])) fun x12 =>
  call (.add .chooser x12) <|
  .done
example : Csv.readCsv (some (utf8 "\"Slot\"\n\"s1\"\n\"s2\"\n".toList)) ',' = .ok [["Slot".toList], ["s1".toList], ["s2".toList]] := by decide +kernel
example : Rhai.slice ([["Slot".toList], ["s1".toList], ["s2".toList]]) 1 9223372036854775807 = .ok ([["s1".toList], ["s2".toList]]) := by decide +kernel
example : Csv.readCsv (some (utf8 "\"Choice\",\"Slot\"\n\"alpha\",\"s1\"\n\"beta\",\"s2\"\n".toList)) ',' = .ok [["Choice".toList, "Slot".toList], ["alpha".toList, "s1".toList], ["beta".toList, "s2".toList]] := by decide +kernel
example : Rhai.slice ([["Choice".toList, "Slot".toList], ["alpha".toList, "s1".toList], ["beta".toList, "s2".toList]]) 1 9223372036854775807 = .ok ([["alpha".toList, "s1".toList], ["beta".toList, "s2".toList]]) := by decide +kernel
example : Csv.readCsv (some (utf8 "\"Chooser\",\"alpha\",\"beta\"\n\"p1\",0,1\n\"p2\",1,0\n".toList)) ',' = .ok [["Chooser".toList, "alpha".toList, "beta".toList], ["p1".toList, "0".toList, "1".toList], ["p2".toList, "1".toList, "0".toList]] := by decide +kernel
example : Rhai.slice ([["Chooser".toList, "alpha".toList, "beta".toList], ["p1".toList, "0".toList, "1".toList], ["p2".toList, "1".toList, "0".toList]]) 1 9223372036854775807 = .ok ([["p1".toList, "0".toList, "1".toList], ["p2".toList, "1".toList, "0".toList]]) := by decide +kernel
example : printed (run 2 opts read_csv_with_default_separator_can_build_a_complete_problem) = .inr "\"Choice\", \"Slot\"\n\"alpha\", \"s1\"\n\"beta\", \"s2\"\n\n\"Chooser\", \"s1\", \"s2\"\n\"p1\", \"alpha\", \"beta\"\n\"p2\", \"alpha\", \"beta\"\n\n" := by decide +kernel
/-! read_csv_with_custom_separator_can_build_a_complete_problem -/
def read_csv_with_custom_separator_can_build_a_complete_problem : Script :=
  obj (.slot "s1".toList) fun x1 =>
  call (.add .slot x1) <|
  obj (.slot "s2".toList) fun x2 =>
  call (.add .slot x2) <|
  obj (.choice "alpha".toList [(boundsInt 2 2)]) fun x3 =>
  call (.add .choice x3) <|
  acc (.attr .choice x3 .slot) fun a4 =>
  obj (.slot "s1".toList) fun x5 =>
  expr (.relate "==" (.acc a4) (.obj .slot x5)) fun e6 =>
  call (.addExpr e6) <|
  obj (.choice "beta".toList [(boundsInt 2 2)]) fun x7 =>
  call (.add .choice x7) <|
  acc (.attr .choice x7 .slot) fun a8 =>
  obj (.slot "s2".toList) fun x9 =>
  expr (.relate "==" (.acc a8) (.obj .slot x9)) fun e10 =>
  call (.addExpr e10) <|
  obj (.chooser "p1".toList ([.str "0".toList, .str "1".toList])) fun x11 =>
  call (.add .chooser x11) <|
  obj (.chooser "p2".toList ([.str "1".toList, .str "0".toList])) fun x12 =>
  call (.add .chooser x12) <|
  .done
example : Csv.readCsv (some (utf8 "Slot\ns1\ns2\n".toList)) ',' = .ok [["Slot".toList], ["s1".toList], ["s2".toList]] := by decide +kernel
example : Rhai.slice ([["Slot".toList], ["s1".toList], ["s2".toList]]) 1 9223372036854775807 = .ok ([["s1".toList], ["s2".toList]]) := by decide +kernel
example : Csv.readCsv (some (utf8 "Choice;Slot\nalpha;s1\nbeta;s2\n".toList)) ';' = .ok [["Choice".toList, "Slot".toList], ["alpha".toList, "s1".toList], ["beta".toList, "s2".toList]] := by decide +kernel
example : Rhai.slice ([["Choice".toList, "Slot".toList], ["alpha".toList, "s1".toList], ["beta".toList, "s2".toList]]) 1 9223372036854775807 = .ok ([["alpha".toList, "s1".toList], ["beta".toList, "s2".toList]]) := by decide +kernel
example : Csv.readCsv (some (utf8 "Chooser;alpha;beta\np1;0;1\np2;1;0\n".toList)) ';' = .ok [["Chooser".toList, "alpha".toList, "beta".toList], ["p1".toList, "0".toList, "1".toList], ["p2".toList, "1".toList, "0".toList]] := by decide +kernel
example : Rhai.slice ([["Chooser".toList, "alpha".toList, "beta".toList], ["p1".toList, "0".toList, "1".toList], ["p2".toList, "1".toList, "0".toList]]) 1 9223372036854775807 = .ok ([["p1".toList, "0".toList, "1".toList], ["p2".toList, "1".toList, "0".toList]]) := by decide +kernel
example : printed (run 2 opts read_csv_with_custom_separator_can_build_a_complete_problem) = .inr "\"Choice\", \"Slot\"\n\"alpha\", \"s1\"\n\"beta\", \"s2\"\n\n\"Chooser\", \"s1\", \"s2\"\n\"p1\", \"alpha\", \"beta\"\n\"p2\", \"alpha\", \"beta\"\n\n" := by decide +kernel
/-! csv_row_accessor_can_select_specific_rows -/
def csv_row_accessor_can_select_specific_rows : Script :=
  obj (.slot "s1".toList) fun x1 =>
  call (.add .slot x1) <|
  obj (.slot "s2".toList) fun x2 =>
  call (.add .slot x2) <|
  obj (.slot "s3".toList) fun x3 =>
  call (.add .slot x3) <|
  obj (.choice "alpha".toList [(boundsInt 1 1)]) fun x4 =>
  call (.add .choice x4) <|
  obj (.choice "beta".toList [(boundsInt 1 1)]) fun x5 =>
  call (.add .choice x5) <|
  obj (.choice "gamma".toList [(boundsInt 1 1)]) fun x6 =>
  call (.add .choice x6) <|
  obj (.choice "alpha".toList []) fun x7 =>
  acc (.attr .choice x7 .slot) fun a8 =>
  obj (.slot "s1".toList) fun x9 =>
  expr (.relate "==" (.acc a8) (.obj .slot x9)) fun e10 =>
  call (.addExpr e10) <|
  obj (.choice "beta".toList []) fun x11 =>
  acc (.attr .choice x11 .slot) fun a12 =>
  obj (.slot "s2".toList) fun x13 =>
  expr (.relate "==" (.acc a12) (.obj .slot x13)) fun e14 =>
  call (.addExpr e14) <|
  obj (.choice "gamma".toList []) fun x15 =>
  acc (.attr .choice x15 .slot) fun a16 =>
  obj (.slot "s3".toList) fun x17 =>
  expr (.relate "==" (.acc a16) (.obj .slot x17)) fun e18 =>
  call (.addExpr e18) <|
  obj (.chooser "p".toList ([.int 0, .int 1, .int 2])) fun x19 =>
  call (.add .chooser x19) <|
  .done
example : Csv.readCsv (some (utf8 "\"Choice\",\"Slot\"\n\"alpha\",\"s1\"\n\"beta\",\"s2\"\n\"gamma\",\"s3\"\n".toList)) ',' = .ok [["Choice".toList, "Slot".toList], ["alpha".toList, "s1".toList], ["beta".toList, "s2".toList], ["gamma".toList, "s3".toList]] := by decide +kernel
example : Rhai.row ([["Choice".toList, "Slot".toList], ["alpha".toList, "s1".toList], ["beta".toList, "s2".toList], ["gamma".toList, "s3".toList]]) 1 = .ok (["alpha".toList, "s1".toList]) := by decide +kernel
example : Rhai.row ([["Choice".toList, "Slot".toList], ["alpha".toList, "s1".toList], ["beta".toList, "s2".toList], ["gamma".toList, "s3".toList]]) 2 = .ok (["beta".toList, "s2".toList]) := by decide +kernel
example : Rhai.row ([["Choice".toList, "Slot".toList], ["alpha".toList, "s1".toList], ["beta".toList, "s2".toList], ["gamma".toList, "s3".toList]]) 3 = .ok (["gamma".toList, "s3".toList]) := by decide +kernel
example : printed (run 2 opts csv_row_accessor_can_select_specific_rows) = .inr "\"Choice\", \"Slot\"\n\"alpha\", \"s1\"\n\"beta\", \"s2\"\n\"gamma\", \"s3\"\n\n\"Chooser\", \"s1\", \"s2\", \"s3\"\n\"p\", \"alpha\", \"beta\", \"gamma\"\n\n" := by decide +kernel
/-! csv_index_accessor_can_select_specific_rows -/
def csv_index_accessor_can_select_specific_rows : Script :=
  obj (.slot "s1".toList) fun x1 =>
  call (.add .slot x1) <|
  obj (.slot "s2".toList) fun x2 =>
  call (.add .slot x2) <|
  obj (.slot "s3".toList) fun x3 =>
  call (.add .slot x3) <|
  obj (.choice "alpha".toList [(boundsInt 1 1)]) fun x4 =>
  call (.add .choice x4) <|
  obj (.choice "beta".toList [(boundsInt 1 1)]) fun x5 =>
  call (.add .choice x5) <|
  obj (.choice "gamma".toList [(boundsInt 1 1)]) fun x6 =>
  call (.add .choice x6) <|
  obj (.choice "alpha".toList []) fun x7 =>
  acc (.attr .choice x7 .slot) fun a8 =>
  obj (.slot "s1".toList) fun x9 =>
  expr (.relate "==" (.acc a8) (.obj .slot x9)) fun e10 =>
  call (.addExpr e10) <|
  obj (.choice "beta".toList []) fun x11 =>
  acc (.attr .choice x11 .slot) fun a12 =>
  obj (.slot "s2".toList) fun x13 =>
  expr (.relate "==" (.acc a12) (.obj .slot x13)) fun e14 =>
  call (.addExpr e14) <|
  obj (.choice "gamma".toList []) fun x15 =>
  acc (.attr .choice x15 .slot) fun a16 =>
  obj (.slot "s3".toList) fun x17 =>
  expr (.relate "==" (.acc a16) (.obj .slot x17)) fun e18 =>
  call (.addExpr e18) <|
  obj (.chooser "p".toList ([.int 0, .int 1, .int 2])) fun x19 =>
  call (.add .chooser x19) <|
  .done
example : Csv.readCsv (some (utf8 "\"Choice\",\"Slot\"\n\"alpha\",\"s1\"\n\"beta\",\"s2\"\n\"gamma\",\"s3\"\n".toList)) ',' = .ok [["Choice".toList, "Slot".toList], ["alpha".toList, "s1".toList], ["beta".toList, "s2".toList], ["gamma".toList, "s3".toList]] := by decide +kernel
example : printed (run 2 opts csv_index_accessor_can_select_specific_rows) = .inr "\"Choice\", \"Slot\"\n\"alpha\", \"s1\"\n\"beta\", \"s2\"\n\"gamma\", \"s3\"\n\n\"Chooser\", \"s1\", \"s2\", \"s3\"\n\"p\", \"alpha\", \"beta\", \"gamma\"\n\n" := by decide +kernel
/-! csv_rows_slice_with_end_can_select_a_tail_range -/
def csv_rows_slice_with_end_can_select_a_tail_range : Script :=
  obj (.slot "s1".toList) fun x1 =>
  call (.add .slot x1) <|
  obj (.slot "s2".toList) fun x2 =>
  call (.add .slot x2) <|
  obj (.choice "alpha".toList [(boundsInt 2 2)]) fun x3 =>
  call (.add .choice x3) <|
  acc (.attr .choice x3 .slot) fun a4 =>
  obj (.slot "s1".toList) fun x5 =>
  expr (.relate "==" (.acc a4) (.obj .slot x5)) fun e6 =>
  call (.addExpr e6) <|
  obj (.choice "beta".toList [(boundsInt 2 2)]) fun x7 =>
  call (.add .choice x7) <|
  acc (.attr .choice x7 .slot) fun a8 =>
  obj (.slot "s2".toList) fun x9 =>
  expr (.relate "==" (.acc a8) (.obj .slot x9)) fun e10 =>
  call (.addExpr e10) <|
  obj (.chooser "p1".toList ([.int 0, .int 1])) fun x11 =>
  call (.add .chooser x11) <|
  obj (.chooser "p2".toList ([.int 1, .int 0])) fun x12 =>
  call (.add .chooser x12) <|
  .done
example : Csv.readCsv (some (utf8 "\"Choice\",\"Slot\"\n\"alpha\",\"s1\"\n\"beta\",\"s2\"\n".toList)) ',' = .ok [["Choice".toList, "Slot".toList], ["alpha".toList, "s1".toList], ["beta".toList, "s2".toList]] := by decide +kernel
example : Rhai.slice ([["Choice".toList, "Slot".toList], ["alpha".toList, "s1".toList], ["beta".toList, "s2".toList]]) 1 9223372036854775807 = .ok ([["alpha".toList, "s1".toList], ["beta".toList, "s2".toList]]) := by decide +kernel
example : printed (run 2 opts csv_rows_slice_with_end_can_select_a_tail_range) = .inr "\"Choice\", \"Slot\"\n\"alpha\", \"s1\"\n\"beta\", \"s2\"\n\n\"Chooser\", \"s1\", \"s2\"\n\"p1\", \"alpha\", \"beta\"\n\"p2\", \"alpha\", \"beta\"\n\n" := by decide +kernel
/-! csv_numeric_strings_are_accepted_by_choice_helpers -/
def csv_numeric_strings_are_accepted_by_choice_helpers : Script :=
  obj (.slot "s1".toList) fun x1 =>
  call (.add .slot x1) <|
  obj (.slot "s2".toList) fun x2 =>
  call (.add .slot x2) <|
  tag (boundsStr "2".toList "2".toList) fun t3 =>
  tag (tagStr .parts "2".toList) fun t4 =>
  obj (.choice "relay".toList [t3, t4]) fun x5 =>
  call (.add .choice x5) <|
  obj (.choice "snack1".toList [(boundsInt 0 2)]) fun x6 =>
  call (.add .choice x6) <|
  obj (.choice "snack2".toList [(boundsInt 0 2)]) fun x7 =>
  call (.add .choice x7) <|
  acc (.attr .choice x5 (.slotPart 0)) fun a8 =>
  obj (.slot "s1".toList) fun x9 =>
  expr (.relate "==" (.acc a8) (.obj .slot x9)) fun e10 =>
  call (.addExpr e10) <|
  acc (.attr .choice x5 (.slotPart 1)) fun a11 =>
  obj (.slot "s2".toList) fun x12 =>
  expr (.relate "==" (.acc a11) (.obj .slot x12)) fun e13 =>
  call (.addExpr e13) <|
  acc (.attr .choice x6 .slot) fun a14 =>
  obj (.slot "s1".toList) fun x15 =>
  expr (.relate "==" (.acc a14) (.obj .slot x15)) fun e16 =>
  call (.addExpr e16) <|
  acc (.attr .choice x7 .slot) fun a17 =>
  obj (.slot "s2".toList) fun x18 =>
  expr (.relate "==" (.acc a17) (.obj .slot x18)) fun e19 =>
  call (.addExpr e19) <|
  obj (.chooser "p1".toList ([.int 0, .int 9, .int 9])) fun x20 =>
  call (.add .chooser x20) <|
  obj (.chooser "p2".toList ([.int 9, .int 0, .int 0])) fun x21 =>
  call (.add .chooser x21) <|
  .done
example : Csv.readCsv (some (utf8 "\"Choice\",\"minimum\",\"maximum\",\"parts\",\"left\",\"right\"\n\"relay\",2,2,2,\"s1\",\"s2\"\n".toList)) ',' = .ok [["Choice".toList, "minimum".toList, "maximum".toList, "parts".toList, "left".toList, "right".toList], ["relay".toList, "2".toList, "2".toList, "2".toList, "s1".toList, "s2".toList]] := by decide +kernel
example : Rhai.row ([["Choice".toList, "minimum".toList, "maximum".toList, "parts".toList, "left".toList, "right".toList], ["relay".toList, "2".toList, "2".toList, "2".toList, "s1".toList, "s2".toList]]) 1 = .ok (["relay".toList, "2".toList, "2".toList, "2".toList, "s1".toList, "s2".toList]) := by decide +kernel
example : printed (run 2 opts csv_numeric_strings_are_accepted_by_choice_helpers) = .inr "\"Choice\", \"Slot\"\n\"relay\", \"s1\"\n\"[2] relay\", \"s2\"\n\"snack1\", \"s1\"\n\"snack2\", \"s2\"\n\n\"Chooser\", \"s1\", \"s2\"\n\"p1\", \"relay\", \"[2] relay\"\n\"p2\", \"relay\", \"[2] relay\"\n\n" := by decide +kernel
/-! missing_csv_file_is_reported_as_an_error -/
def missing_csv_file_is_reported_as_an_error : Script :=

  .fail
example : rejects (run 2 opts missing_csv_file_is_reported_as_an_error) = true := by decide +kernel
/-! out_of_range_csv_row_access_is_rejected -/
def out_of_range_csv_row_access_is_rejected : Script :=

  .fail
example : Csv.readCsv (some (utf8 "\"Choice\"\n\"alpha\"\n".toList)) ',' = .ok [["Choice".toList], ["alpha".toList]] := by decide +kernel
example : (Rhai.row ([["Choice".toList], ["alpha".toList]]) 9).isOk = false := by decide +kernel
example : rejects (run 2 opts out_of_range_csv_row_access_is_rejected) = true := by decide +kernel
/-! read_file_can_supply_names_or_script_fragments -/
def read_file_can_supply_names_or_script_fragments : Script :=
  obj (.slot "early".toList) fun x1 =>
  call (.add .slot x1) <|
  obj (.slot "late slot".toList) fun x2 =>
  call (.add .slot x2) <|
  obj (.choice "opening".toList [(boundsInt 2 2)]) fun x3 =>
  call (.add .choice x3) <|
  obj (.choice "talk".toList [(boundsInt 2 2)]) fun x4 =>
  call (.add .choice x4) <|
  acc (.attr .choice x3 .slot) fun a5 =>
  obj (.slot "early".toList) fun x6 =>
  expr (.relate "==" (.acc a5) (.obj .slot x6)) fun e7 =>
  call (.addExpr e7) <|
  acc (.attr .choice x4 .slot) fun a8 =>
  obj (.slot "late slot".toList) fun x9 =>
  expr (.relate "==" (.acc a8) (.obj .slot x9)) fun e10 =>
  call (.addExpr e10) <|
  obj (.chooser "p1".toList ([.int 0, .int 1])) fun x11 =>
  call (.add .chooser x11) <|
  obj (.chooser "p2".toList ([.int 1, .int 0])) fun x12 =>
  call (.add .chooser x12) <|
  .done
example : printed (run 2 opts read_file_can_supply_names_or_script_fragments) = .inr "\"Choice\", \"Slot\"\n\"opening\", \"early\"\n\"talk\", \"late slot\"\n\n\"Chooser\", \"early\", \"late slot\"\n\"p1\", \"opening\", \"talk\"\n\"p2\", \"opening\", \"talk\"\n\n" := by decide +kernel
/-! missing_read_file_target_is_reported_as_an_error -/
def missing_read_file_target_is_reported_as_an_error : Script :=

  .fail
example : rejects (run 2 opts missing_read_file_target_is_reported_as_an_error) = true := by decide +kernel
/-! set_arguments_can_override_timeout_inside_input -/
def set_arguments_can_override_timeout_inside_input : Script :=
  call (.setArguments ([.str "--timeout".toList, .str "1s".toList])) <|
  obj (.slot "s1".toList) fun x1 =>
  call (.add .slot x1) <|
  obj (.slot "s2".toList) fun x2 =>
  call (.add .slot x2) <|
  obj (.choice "alpha".toList [(boundsInt 2 2)]) fun x3 =>
  call (.add .choice x3) <|
  obj (.choice "beta".toList [(boundsInt 2 2)]) fun x4 =>
  call (.add .choice x4) <|
  acc (.attr .choice x3 .slot) fun a5 =>
  obj (.slot "s1".toList) fun x6 =>
  expr (.relate "==" (.acc a5) (.obj .slot x6)) fun e7 =>
  call (.addExpr e7) <|
  acc (.attr .choice x4 .slot) fun a8 =>
  obj (.slot "s2".toList) fun x9 =>
  expr (.relate "==" (.acc a8) (.obj .slot x9)) fun e10 =>
  call (.addExpr e10) <|
  obj (.chooser "p1".toList ([.int 0, .int 1])) fun x11 =>
  call (.add .chooser x11) <|
  obj (.chooser "p2".toList ([.int 1, .int 0])) fun x12 =>
  call (.add .chooser x12) <|
  .done
example : printed (run 2 { opts with noCs := true } set_arguments_can_override_timeout_inside_input) = .inr "\"Choice\", \"Slot\"\n\"alpha\", \"s1\"\n\"beta\", \"s2\"\n\n\"Chooser\", \"s1\", \"s2\"\n\"p1\", \"alpha\", \"beta\"\n\"p2\", \"alpha\", \"beta\"\n\n" := by decide +kernel
/-! set_arguments_can_enable_greedy_mode_inside_input -/
def set_arguments_can_enable_greedy_mode_inside_input : Script :=
  call (.setArguments ([.str "--greedy".toList])) <|
  obj (.slot "s1".toList) fun x1 =>
  call (.add .slot x1) <|
  obj (.slot "s2".toList) fun x2 =>
  call (.add .slot x2) <|
  obj (.choice "a".toList [(boundsInt 1 2)]) fun x3 =>
  call (.add .choice x3) <|
  obj (.choice "b".toList [(boundsInt 1 2)]) fun x4 =>
  call (.add .choice x4) <|
  obj (.choice "c".toList [(boundsInt 1 2)]) fun x5 =>
  call (.add .choice x5) <|
  obj (.chooser "p1".toList ([.int 0, .int 0, .int 0])) fun x6 =>
  call (.add .chooser x6) <|
  obj (.chooser "p2".toList ([.int 0, .int 0, .int 1])) fun x7 =>
  call (.add .chooser x7) <|
  .done
example : (run 2 opts set_arguments_can_enable_greedy_mode_inside_input).isOk = true := by decide +kernel
/-! invalid_set_arguments_input_is_rejected -/
def invalid_set_arguments_input_is_rejected : Script :=
  call (.setArguments ([.str "--timeout".toList])) <|
  obj (.slot "s".toList) fun x1 =>
  call (.add .slot x1) <|
  obj (.choice "alpha".toList [(boundsInt 1 1)]) fun x2 =>
  call (.add .choice x2) <|
  obj (.chooser "p".toList ([.int 0])) fun x3 =>
  call (.add .chooser x3) <|
  .done
example : rejects (run 2 opts invalid_set_arguments_input_is_rejected) = true := by decide +kernel
/-! cli_arguments_and_set_arguments_have_a_defined_precedence -/
def cli_arguments_and_set_arguments_have_a_defined_precedence : Script :=
  call (.setArguments ([.str "--output".toList, .str "script-output".toList])) <|
  obj (.slot "s1".toList) fun x1 =>
  call (.add .slot x1) <|
  obj (.slot "s2".toList) fun x2 =>
  call (.add .slot x2) <|
  obj (.choice "alpha".toList [(boundsInt 2 2)]) fun x3 =>
  call (.add .choice x3) <|
  obj (.choice "beta".toList [(boundsInt 2 2)]) fun x4 =>
  call (.add .choice x4) <|
  acc (.attr .choice x3 .slot) fun a5 =>
  obj (.slot "s1".toList) fun x6 =>
  expr (.relate "==" (.acc a5) (.obj .slot x6)) fun e7 =>
  call (.addExpr e7) <|
  acc (.attr .choice x4 .slot) fun a8 =>
  obj (.slot "s2".toList) fun x9 =>
  expr (.relate "==" (.acc a8) (.obj .slot x9)) fun e10 =>
  call (.addExpr e10) <|
  obj (.chooser "p1".toList ([.int 0, .int 1])) fun x11 =>
  call (.add .chooser x11) <|
  obj (.chooser "p2".toList ([.int 1, .int 0])) fun x12 =>
  call (.add .chooser x12) <|
  .done
example : run 2 { opts with outputFile := some "cli-output".toList } cli_arguments_and_set_arguments_have_a_defined_precedence = .ok (.tables (some "\"Choice\", \"Slot\"\n\"alpha\", \"s1\"\n\"beta\", \"s2\"".toList) "\"Chooser\", \"s1\", \"s2\"\n\"p1\", \"alpha\", \"beta\"\n\"p2\", \"alpha\", \"beta\"".toList) := by decide +kernel

end Wassign.Conf.FileInputs
