import Verif.Conformance.Runner
import Verif.Model.Csv
/-
tests/input_test.rs, src/input/input_reader.rs: the tests of the repository, replayed on the model. Generated by tools/conformance.py.
-/
namespace Wassign.Conf.Input
open Reader Main Conf

set_option linter.unusedVariables false

/-! should_parse_everything_without_error -/
def should_parse_everything_without_error : Script :=
  obj (.slot ".".toList) fun x1 =>
  call (.add .slot x1) <|
  obj (.slot "x".toList) fun x2 =>
  call (.add .slot x2) <|
  obj (.slot "a-b'c d".toList) fun x3 =>
  call (.add .slot x3) <|
  obj (.choice "w1".toList [(boundsInt 1 9), optionalTag]) fun x4 =>
  call (.add .choice x4) <|
  obj (.choice "w2".toList [(tagInt .min 1), (tagInt .max 178), (optionalIf false)]) fun x5 =>
  call (.add .choice x5) <|
  obj (.choice "w3".toList [(boundsInt 12 13), (tagInt .parts 3)]) fun x6 =>
  call (.add .choice x6) <|
  obj (.chooser "p1".toList ([.int 0, .int 1, .int 2])) fun x7 =>
  call (.add .chooser x7) <|
  obj (.chooser "p2".toList ([.int 12, .int 100, .int 1])) fun x8 =>
  call (.add .chooser x8) <|
  obj (.chooser "p3".toList ([.int 10100, .int 12, .int 0])) fun x9 =>
  call (.add .chooser x9) <|
  obj (.chooser "p4".toList ([.int 20, .int 5, .int 21])) fun x10 =>
  call (.add .chooser x10) <|
  obj (.chooser "q5".toList ([.int 2, .int 4, .int 5])) fun x11 =>
  call (.add .chooser x11) <|
  obj (.chooser "q5".toList ([])) fun x12 =>
  call (.setName .chooser x12 "p5".toList) <|
  .done
example : (data should_parse_everything_without_error).slots = [".".toList, "x".toList, "a-b'c d".toList] ∧ (data should_parse_everything_without_error).choices.map (fun c => String.ofList c.name) = ["w1", "w2", "w3", "~[2] w3", "~[3] w3"] ∧ (data should_parse_everything_without_error).choosers.map (fun c => String.ofList c.name) = ["p1", "p2", "p3", "p4", "p5"] ∧ (data should_parse_everything_without_error).schedCons.length = 6 ∧ (data should_parse_everything_without_error).asgCons.length = 3 := by decide +kernel
/-! should_create_scheduling_constraints_for_multi_part_choices -/
def should_create_scheduling_constraints_for_multi_part_choices : Script :=
  obj (.slot "s1".toList) fun x1 =>
  call (.add .slot x1) <|
  obj (.slot "s2".toList) fun x2 =>
  call (.add .slot x2) <|
  obj (.slot "s3".toList) fun x3 =>
  call (.add .slot x3) <|
  obj (.choice "e".toList [(boundsInt 1 100), (tagInt .parts 3)]) fun x4 =>
  call (.add .choice x4) <|
  obj (.chooser "p".toList ([.int 1])) fun x5 =>
  call (.add .chooser x5) <|
  .done
example : (data should_create_scheduling_constraints_for_multi_part_choices).schedCons.length = 6 := by decide +kernel
/-! should_auto_generate_set_if_none_is_given -/
def should_auto_generate_set_if_none_is_given : Script :=
  obj (.choice "w1".toList [(boundsInt 1 100)]) fun x1 =>
  call (.add .choice x1) <|
  obj (.chooser "p1".toList ([.int 0])) fun x2 =>
  call (.add .chooser x2) <|
  .done
example : (parse opts should_auto_generate_set_if_none_is_given).isOk = true ∧ (data should_auto_generate_set_if_none_is_given).slots.length = 1 := by decide +kernel
/-! should_not_accept_too_many_preferences -/
def should_not_accept_too_many_preferences : Script :=
  obj (.choice "w1".toList [(tagInt .max 1)]) fun x1 =>
  call (.add .choice x1) <|
  obj (.chooser "p1".toList ([.int 0, .int 1])) fun x2 =>
  call (.add .chooser x2) <|
  .done
example : rejects (parse opts should_not_accept_too_many_preferences) = true := by decide +kernel
/-! should_not_accept_too_few_preferences -/
def should_not_accept_too_few_preferences : Script :=
  obj (.choice "w1".toList [(tagInt .max 1)]) fun x1 =>
  call (.add .choice x1) <|
  obj (.choice "w2".toList [(tagInt .max 1)]) fun x2 =>
  call (.add .choice x2) <|
  obj (.chooser "p1".toList ([.int 0])) fun x3 =>
  call (.add .chooser x3) <|
  .done
example : rejects (parse opts should_not_accept_too_few_preferences) = true := by decide +kernel
/-! should_not_accept_choices_with_zero_minimum_chooser_count -/
def should_not_accept_choices_with_zero_minimum_chooser_count : Script :=
  obj (.slot "s".toList) fun x1 =>
  call (.add .slot x1) <|
  obj (.choice "e".toList [(tagInt .max 100)]) fun x2 =>
  .fail
example : rejects (parse opts should_not_accept_choices_with_zero_minimum_chooser_count) = true := by decide +kernel
/-! should_not_accept_input_without_choices -/
def should_not_accept_input_without_choices : Script :=
  obj (.slot "s1".toList) fun x1 =>
  call (.add .slot x1) <|
  obj (.chooser "p1".toList ([])) fun x2 =>
  call (.add .chooser x2) <|
  .done
example : rejects (parse opts should_not_accept_input_without_choices) = true := by decide +kernel
/-! should_not_accept_input_without_choosers -/
def should_not_accept_input_without_choosers : Script :=
  obj (.slot "s1".toList) fun x1 =>
  call (.add .slot x1) <|
  obj (.choice "w1".toList [(tagInt .max 1)]) fun x2 =>
  call (.add .choice x2) <|
  .done
example : rejects (parse opts should_not_accept_input_without_choosers) = true := by decide +kernel
/-! should_not_accept_ambiguous_fuzzy_name_lookup -/
def should_not_accept_ambiguous_fuzzy_name_lookup : Script :=
  obj (.slot "alpha beta".toList) fun x1 =>
  call (.add .slot x1) <|
  obj (.slot "alpha gamma".toList) fun x2 =>
  call (.add .slot x2) <|
  obj (.choice "w1".toList [(boundsInt 1 1)]) fun x3 =>
  call (.add .choice x3) <|
  obj (.chooser "p1".toList ([.int 0])) fun x4 =>
  call (.add .chooser x4) <|
  obj (.choice "w1".toList []) fun x5 =>
  acc (.attr .choice x5 .slot) fun a6 =>
  obj (.slot "alpha".toList) fun x7 =>
  expr (.relate "==" (.acc a6) (.obj .slot x7)) fun e8 =>
  call (.addExpr e8) <|
  .done
example : rejects (parse opts should_not_accept_ambiguous_fuzzy_name_lookup) = true := by decide +kernel
/-! should_not_accept_duplicate_names_after_renaming -/
def should_not_accept_duplicate_names_after_renaming : Script :=
  obj (.slot "s1".toList) fun x1 =>
  call (.add .slot x1) <|
  obj (.slot "s2".toList) fun x2 =>
  call (.setName .slot x2 "s1".toList) <|
  call (.add .slot x2) <|
  obj (.choice "w1".toList [(boundsInt 1 1)]) fun x3 =>
  call (.add .choice x3) <|
  obj (.chooser "p1".toList ([.int 0])) fun x4 =>
  call (.add .chooser x4) <|
  .done
example : rejects (parse opts should_not_accept_duplicate_names_after_renaming) = true := by decide +kernel
/-! should_parse_slots -/
def should_parse_slots : Script :=
  obj (.slot "a".toList) fun x1 =>
  call (.add .slot x1) <|
  obj (.slot "b".toList) fun x2 =>
  call (.add .slot x2) <|
  obj (.choice "x".toList [(boundsInt 1 1)]) fun x3 =>
  call (.add .choice x3) <|
  obj (.chooser "y".toList ([.int 0])) fun x4 =>
  call (.add .chooser x4) <|
  .done
example : (data should_parse_slots).slots = ["a".toList, "b".toList] := by decide +kernel
/-! should_parse_choices -/
def should_parse_choices : Script :=
  obj (.choice "a".toList []) fun x1 =>
  call (.add .choice x1) <|
  obj (.choice "b".toList [(boundsInt 2 3), optionalTag]) fun x2 =>
  call (.add .choice x2) <|
  obj (.choice "c".toList [(boundsInt 5 7), (tagInt .parts 2)]) fun x3 =>
  call (.add .choice x3) <|
  obj (.chooser "y".toList ([.int 11, .int 13, .int 17])) fun x4 =>
  call (.add .chooser x4) <|
  .done
example : (data should_parse_choices).choices = [⟨"a".toList, 1, 1, none, false⟩, ⟨"b".toList, 2, 3, none, true⟩, ⟨"c".toList, 5, 7, some 3, false⟩, ⟨"~[2] c".toList, 5, 7, none, false⟩] ∧ (data should_parse_choices).choosers.map (·.prefs) = [[6, 4, 0, 0]] := by decide +kernel
/-! should_parse_choosers -/
def should_parse_choosers : Script :=
  obj (.choice "x".toList []) fun x1 =>
  call (.add .choice x1) <|
  obj (.choice "y".toList []) fun x2 =>
  call (.add .choice x2) <|
  obj (.chooser "a".toList ([.int 2, .int 3])) fun x3 =>
  call (.add .chooser x3) <|
  obj (.chooser "b".toList ([.int 5, .int 7])) fun x4 =>
  call (.add .chooser x4) <|
  .done
example : (data should_parse_choosers).choosers = [⟨"a".toList, [5, 4]⟩, ⟨"b".toList, [2, 0]⟩] := by decide +kernel
/-! should_parse_constraints -/
def should_parse_constraints : Script :=
  obj (.slot "s1".toList) fun x1 =>
  call (.add .slot x1) <|
  obj (.slot "s2".toList) fun x2 =>
  call (.add .slot x2) <|
  obj (.choice "a".toList []) fun x3 =>
  call (.add .choice x3) <|
  obj (.choice "b".toList []) fun x4 =>
  call (.add .choice x4) <|
  obj (.chooser "c".toList ([.int 0, .int 0])) fun x5 =>
  call (.add .chooser x5) <|
  obj (.chooser "d".toList ([.int 0, .int 0])) fun x6 =>
  call (.add .chooser x6) <|
  acc (.attr .choice x4 .slot) fun a7 =>
  expr (.relate "==" (.acc a7) (.obj .slot x2)) fun e8 =>
  call (.addExpr e8) <|
  acc (.attr .choice x4 .slot) fun a9 =>
  expr (.relate "!=" (.acc a9) (.obj .slot x2)) fun e10 =>
  call (.addExpr e10) <|
  acc (.attr .choice x4 .slot) fun a11 =>
  acc (.attr .choice x3 .slot) fun a12 =>
  expr (.relate "==" (.acc a11) (.acc a12)) fun e13 =>
  call (.addExpr e13) <|
  acc (.attr .choice x3 .slot) fun a14 =>
  acc (.attr .choice x4 .slot) fun a15 =>
  expr (.relate "!=" (.acc a14) (.acc a15)) fun e16 =>
  call (.addExpr e16) <|
  acc (.attr .slot x2 .size) fun a17 =>
  expr (.relate "==" (.acc a17) (.int 1)) fun e18 =>
  call (.addExpr e18) <|
  acc (.attr .slot x2 .size) fun a19 =>
  expr (.relate "<=" (.acc a19) (.int 3)) fun e20 =>
  call (.addExpr e20) <|
  acc (.attr .slot x2 .choices) fun a21 =>
  expr (.relate "contains" (.acc a21) (.obj .choice x3)) fun e22 =>
  call (.addExpr e22) <|
  acc (.attr .slot x1 .choices) fun a23 =>
  expr (.relate "contains_not" (.acc a23) (.obj .choice x4)) fun e24 =>
  call (.addExpr e24) <|
  acc (.attr .slot x2 .choices) fun a25 =>
  acc (.attr .slot x2 .choices) fun a26 =>
  expr (.relate "==" (.acc a25) (.acc a26)) fun e27 =>
  call (.addExpr e27) <|
  acc (.attr .choice x4 .choosers) fun a28 =>
  acc (.attr .choice x3 .choosers) fun a29 =>
  expr (.relate "==" (.acc a28) (.acc a29)) fun e30 =>
  call (.addExpr e30) <|
  acc (.attr .chooser x6 .choices) fun a31 =>
  expr (.relate "contains" (.acc a31) (.obj .choice x4)) fun e32 =>
  call (.addExpr e32) <|
  acc (.attr .chooser x6 .choices) fun a33 =>
  expr (.relate "contains_not" (.acc a33) (.obj .choice x4)) fun e34 =>
  call (.addExpr e34) <|
  acc (.attr .chooser x6 .choices) fun a35 =>
  acc (.attr .chooser x5 .choices) fun a36 =>
  expr (.relate "==" (.acc a35) (.acc a36)) fun e37 =>
  call (.addExpr e37) <|
  acc (.attr .choice x4 .choosers) fun a38 =>
  expr (.relate "contains" (.acc a38) (.obj .chooser x5)) fun e39 =>
  call (.addExpr e39) <|
  acc (.attr .choice x3 .choosers) fun a40 =>
  expr (.relate "contains_not" (.acc a40) (.obj .chooser x6)) fun e41 =>
  call (.addExpr e41) <|
  .done
def required : List Constraint := [⟨.choiceIsInSlot, 0, .slot 1, .none⟩,
  ⟨.choiceIsInSlot, 1, .slot 1, .none⟩,
  ⟨.choiceIsNotInSlot, 1, .slot 0, .none⟩,
  ⟨.choiceIsNotInSlot, 1, .slot 1, .none⟩,
  ⟨.choicesAreInSameSlot, 1, .choice 0, .none⟩,
  ⟨.choicesAreNotInSameSlot, 0, .choice 1, .none⟩,
  ⟨.slotHasLimitedSize, 1, .limit 1, .limitOp .eq⟩,
  ⟨.slotHasLimitedSize, 1, .limit 3, .limitOp .leq⟩,
  ⟨.choicesHaveSameChoosers, 1, .choice 0, .none⟩,
  ⟨.chooserIsInChoice, 0, .choice 0, .none⟩,
  ⟨.chooserIsInChoice, 0, .choice 1, .none⟩,
  ⟨.chooserIsInChoice, 1, .choice 0, .none⟩,
  ⟨.chooserIsInChoice, 1, .choice 1, .none⟩,
  ⟨.chooserIsNotInChoice, 1, .choice 0, .none⟩,
  ⟨.chooserIsNotInChoice, 1, .choice 1, .none⟩,
  ⟨.choosersHaveSameChoices, 1, .chooser 0, .none⟩]
example : (∀ c ∈ required, c ∈ (data should_parse_constraints).schedCons ++ (data should_parse_constraints).asgCons) ∧ (∀ c ∈ (data should_parse_constraints).schedCons ++ (data should_parse_constraints).asgCons, c ∈ required) := by decide +kernel
/-! should_accept_string_preferences_and_range -/
def should_accept_string_preferences_and_range : Script :=
  obj (.choice "a".toList []) fun x1 =>
  call (.add .choice x1) <|
  obj (.choice "b".toList []) fun x2 =>
  call (.add .choice x2) <|
  obj (.chooser "p".toList ([.str "1".toList, .str "0".toList])) fun x3 =>
  call (.add .chooser x3) <|
  obj (.chooser "q".toList ((Rhai.range 0 1).map .int)) fun x4 =>
  call (.add .chooser x4) <|
  .done
example : (data should_accept_string_preferences_and_range).choices.length = 2 ∧ (data should_accept_string_preferences_and_range).choosers.length = 2 := by decide +kernel
/-! should_parse_csv_input_with_slice_and_numeric_strings -/
def should_parse_csv_input_with_slice_and_numeric_strings : Script :=
  tag (boundsStr "1".toList "2".toList) fun t1 =>
  obj (.choice "A".toList [t1, (optionalIf false)]) fun x2 =>
  call (.add .choice x2) <|
  tag (boundsStr "2".toList "3".toList) fun t3 =>
  obj (.choice "B".toList [t3, (optionalIf true)]) fun x4 =>
  call (.add .choice x4) <|
  obj (.chooser "p".toList ([.int 0, .int 0])) fun x5 =>
  call (.add .chooser x5) <|
  .done
example : Csv.readCsv (some (utf8 "\"Choice\",\"minimum\",\"maximum\",\"optional?\"\n\"A\",1,2,\"no\"\n\"B\",2,3,\"yes\"\n".toList)) ',' = .ok [["Choice".toList, "minimum".toList, "maximum".toList, "optional?".toList], ["A".toList, "1".toList, "2".toList, "no".toList], ["B".toList, "2".toList, "3".toList, "yes".toList]] := by decide +kernel
example : Rhai.slice ([["Choice".toList, "minimum".toList, "maximum".toList, "optional?".toList], ["A".toList, "1".toList, "2".toList, "no".toList], ["B".toList, "2".toList, "3".toList, "yes".toList]]) 1 9223372036854775807 = .ok ([["A".toList, "1".toList, "2".toList, "no".toList], ["B".toList, "2".toList, "3".toList, "yes".toList]]) := by decide +kernel
example : (data should_parse_csv_input_with_slice_and_numeric_strings).choices.length = 2 ∧ (data should_parse_csv_input_with_slice_and_numeric_strings).choosers.length = 1 := by decide +kernel
/-! read_input_should_accept_let_and_preserve_string_literals -/
def read_input_should_accept_let_and_preserve_string_literals : Script :=
  obj (.slot "var slot".toList) fun x1 =>
  call (.add .slot x1) <|
  obj (.choice "var choice".toList []) fun x2 =>
  call (.add .choice x2) <|
  obj (.chooser "var chooser".toList ([.int 0])) fun x3 =>
  call (.add .chooser x3) <|
  acc (.attr .choice x2 .slot) fun a4 =>
  expr (.relate "==" (.acc a4) (.obj .slot x1)) fun e5 =>
  call (.addExpr e5) <|
  acc (.attr .chooser x3 .choices) fun a6 =>
  expr (.relate "contains" (.acc a6) (.obj .choice x2)) fun e7 =>
  call (.addExpr e7) <|
  .done
example : (data read_input_should_accept_let_and_preserve_string_literals).slots = ["var slot".toList] ∧ (data read_input_should_accept_let_and_preserve_string_literals).choices.map (·.name) = ["var choice".toList] ∧ (data read_input_should_accept_let_and_preserve_string_literals).choosers.map (·.name) = ["var chooser".toList] := by decide +kernel
/-! read_input_should_apply_set_arguments -/
def read_input_should_apply_set_arguments : Script :=
  call (.setArguments ([.str "-t".toList, .str "5s".toList, .str "-j".toList, .str "4".toList, .str "-n".toList, .str "9".toList, .str "--greedy".toList])) <|
  obj (.slot "s".toList) fun x1 =>
  call (.add .slot x1) <|
  obj (.choice "e".toList []) fun x2 =>
  call (.add .choice x2) <|
  obj (.chooser "p".toList ([.int 0])) fun x3 =>
  call (.add .chooser x3) <|
  .done
example : (let o := effectiveOptions (readInput (outside 0).opt (new opts) read_input_should_apply_set_arguments).2; (o.timeout, o.threads, o.maxNeighbors, o.greedy)) = (5, 4, 9, true) := by decide +kernel
/-! read_input_should_accept_read_file -/
def read_input_should_accept_read_file : Script :=
  obj (.slot "from file".toList) fun x1 =>
  call (.add .slot x1) <|
  obj (.choice "e".toList []) fun x2 =>
  call (.add .choice x2) <|
  obj (.chooser "p".toList ([.int 0])) fun x3 =>
  call (.add .chooser x3) <|
  .done
example : (data read_input_should_accept_read_file).slots = ["from file".toList] := by decide +kernel
/-! read_input_should_support_csv_row_accessors -/
def read_input_should_support_csv_row_accessors : Script :=
  tag (boundsStr "1".toList "2".toList) fun t1 =>
  obj (.choice "A".toList [t1, (optionalIf false)]) fun x2 =>
  call (.add .choice x2) <|
  tag (boundsStr "2".toList "3".toList) fun t3 =>
  obj (.choice "B".toList [t3, (optionalIf true)]) fun x4 =>
  call (.add .choice x4) <|
  obj (.chooser "p".toList ([.int 0, .int 0])) fun x5 =>
  call (.add .chooser x5) <|
  .done
example : Csv.readCsv (some (utf8 "\"Choice\",\"minimum\",\"maximum\",\"optional?\"\n\"A\",1,2,\"no\"\n\"B\",2,3,\"yes\"\n".toList)) ',' = .ok [["Choice".toList, "minimum".toList, "maximum".toList, "optional?".toList], ["A".toList, "1".toList, "2".toList, "no".toList], ["B".toList, "2".toList, "3".toList, "yes".toList]] := by decide +kernel
example : Rhai.row ([["Choice".toList, "minimum".toList, "maximum".toList, "optional?".toList], ["A".toList, "1".toList, "2".toList, "no".toList], ["B".toList, "2".toList, "3".toList, "yes".toList]]) 1 = .ok (["A".toList, "1".toList, "2".toList, "no".toList]) := by decide +kernel
example : (data read_input_should_support_csv_row_accessors).choices.length = 2 := by decide +kernel
/-! read_input_should_support_part_aware_accessors -/
def read_input_should_support_part_aware_accessors : Script :=
  obj (.slot "s1".toList) fun x1 =>
  call (.add .slot x1) <|
  obj (.slot "s2".toList) fun x2 =>
  call (.add .slot x2) <|
  obj (.choice "x".toList [(tagInt .parts 2)]) fun x3 =>
  call (.add .choice x3) <|
  obj (.chooser "p".toList ([.int 0])) fun x4 =>
  call (.add .chooser x4) <|
  obj (.choice "x".toList []) fun x5 =>
  acc (.attr .choice x5 (.slotPart 1)) fun a6 =>
  obj (.slot "s2".toList) fun x7 =>
  expr (.relate "==" (.acc a6) (.obj .slot x7)) fun e8 =>
  call (.addExpr e8) <|
  obj (.choice "x".toList []) fun x9 =>
  acc (.attr .choice x9 (.choosersPart 1)) fun a10 =>
  obj (.chooser "p".toList ([])) fun x11 =>
  expr (.relate "contains" (.acc a10) (.obj .chooser x11)) fun e12 =>
  call (.addExpr e12) <|
  .done
example : (parse opts read_input_should_support_part_aware_accessors).isOk = true ∧ (readInput (outside 0).opt (new opts) read_input_should_support_part_aware_accessors).2.synced.exprs.map (fun e => e.left.part) = [1, 1] := by decide +kernel

end Wassign.Conf.Input
