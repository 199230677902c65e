import Verif.Conformance.Runner
import Verif.Model.Csv
/-
tests/e2e_input_api.rs: the tests of the repository, replayed on the model. Generated by tools/conformance.py.
-/
namespace Wassign.Conf.InputApi
open Reader Main Conf

set_option linter.unusedVariables false

/-! add_function_registers_objects_the_same_as_unary_plus -/
def add_function_registers_objects_the_same_as_unary_plus : Script :=
  obj (.slot "s1".toList) fun x1 =>
  obj (.slot "s2".toList) fun x2 =>
  call (.add .slot x1) <|
  call (.add .slot x2) <|
  obj (.choice "c1".toList [(boundsInt 1 1)]) fun x3 =>
  obj (.choice "c2".toList [(boundsInt 1 1)]) fun x4 =>
  call (.add .choice x3) <|
  call (.add .choice x4) <|
  obj (.chooser "p".toList ([.int 0, .int 1])) fun x5 =>
  call (.add .chooser x5) <|
  acc (.attr .choice x3 .slot) fun a6 =>
  expr (.relate "==" (.acc a6) (.obj .slot x1)) fun e7 =>
  call (.addExpr e7) <|
  acc (.attr .choice x4 .slot) fun a8 =>
  expr (.relate "==" (.acc a8) (.obj .slot x2)) fun e9 =>
  call (.addExpr e9) <|
  .done
example : printed (run 2 opts add_function_registers_objects_the_same_as_unary_plus) = .inr "\"Choice\", \"Slot\"\n\"c1\", \"s1\"\n\"c2\", \"s2\"\n\n\"Chooser\", \"s1\", \"s2\"\n\"p\", \"c1\", \"c2\"\n\n" := by decide +kernel
/-! unregistered_new_object_is_rejected -/
def unregistered_new_object_is_rejected : Script :=
  obj (.slot "s1".toList) fun x1 =>
  call (.add .slot x1) <|
  obj (.choice "c1".toList [(boundsInt 1 1)]) fun x2 =>
  call (.add .choice x2) <|
  obj (.chooser "p".toList ([.int 0])) fun x3 =>
  call (.add .chooser x3) <|
  obj (.slot "dangling".toList) fun x4 =>
  .done
example : rejects (run 2 opts unregistered_new_object_is_rejected) = true := by decide +kernel
/-! exact_name_lookup_reuses_existing_objects -/
def exact_name_lookup_reuses_existing_objects : Script :=
  obj (.slot "Morning".toList) fun x1 =>
  call (.add .slot x1) <|
  obj (.slot "Afternoon".toList) fun x2 =>
  call (.add .slot x2) <|
  obj (.choice "Main Talk".toList [(boundsInt 1 1)]) fun x3 =>
  call (.add .choice x3) <|
  obj (.choice "Workshop".toList [(boundsInt 1 1)]) fun x4 =>
  call (.add .choice x4) <|
  obj (.chooser "Ada".toList ([.int 0, .int 1])) fun x5 =>
  call (.add .chooser x5) <|
  obj (.choice "Main Talk".toList []) fun x6 =>
  acc (.attr .choice x6 .slot) fun a7 =>
  obj (.slot "Morning".toList) fun x8 =>
  expr (.relate "==" (.acc a7) (.obj .slot x8)) fun e9 =>
  call (.addExpr e9) <|
  obj (.choice "Workshop".toList []) fun x10 =>
  acc (.attr .choice x10 .slot) fun a11 =>
  obj (.slot "Afternoon".toList) fun x12 =>
  expr (.relate "==" (.acc a11) (.obj .slot x12)) fun e13 =>
  call (.addExpr e13) <|
  .done
example : printed (run 2 opts exact_name_lookup_reuses_existing_objects) = .inr "\"Choice\", \"Slot\"\n\"Main Talk\", \"Morning\"\n\"Workshop\", \"Afternoon\"\n\n\"Chooser\", \"Morning\", \"Afternoon\"\n\"Ada\", \"Main Talk\", \"Workshop\"\n\n" := by decide +kernel
/-! fuzzy_name_lookup_by_token_is_supported -/
def fuzzy_name_lookup_by_token_is_supported : Script :=
  obj (.slot "Room Red".toList) fun x1 =>
  call (.add .slot x1) <|
  obj (.slot "Room Blue".toList) fun x2 =>
  call (.add .slot x2) <|
  obj (.choice "Graph Theory".toList [(boundsInt 1 1)]) fun x3 =>
  call (.add .choice x3) <|
  obj (.choice "Compiler Systems".toList [(boundsInt 1 1)]) fun x4 =>
  call (.add .choice x4) <|
  obj (.chooser "p".toList ([.int 0, .int 1])) fun x5 =>
  call (.add .chooser x5) <|
  obj (.choice "Theory".toList []) fun x6 =>
  acc (.attr .choice x6 .slot) fun a7 =>
  obj (.slot "Blue".toList) fun x8 =>
  expr (.relate "==" (.acc a7) (.obj .slot x8)) fun e9 =>
  call (.addExpr e9) <|
  obj (.choice "Compiler Systems".toList []) fun x10 =>
  acc (.attr .choice x10 .slot) fun a11 =>
  obj (.slot "Room Red".toList) fun x12 =>
  expr (.relate "==" (.acc a11) (.obj .slot x12)) fun e13 =>
  call (.addExpr e13) <|
  .done
example : printed (run 2 opts fuzzy_name_lookup_by_token_is_supported) = .inr "\"Choice\", \"Slot\"\n\"Graph Theory\", \"Room Blue\"\n\"Compiler Systems\", \"Room Red\"\n\n\"Chooser\", \"Room Red\", \"Room Blue\"\n\"p\", \"Compiler Systems\", \"Graph Theory\"\n\n" := by decide +kernel
/-! ambiguous_fuzzy_name_lookup_is_rejected -/
def ambiguous_fuzzy_name_lookup_is_rejected : Script :=
  obj (.slot "alpha beta".toList) fun x1 =>
  call (.add .slot x1) <|
  obj (.slot "alpha gamma".toList) fun x2 =>
  call (.add .slot x2) <|
  obj (.choice "w1".toList [(boundsInt 1 1)]) fun x3 =>
  call (.add .choice x3) <|
  obj (.chooser "p1".toList ([.int 0])) fun x4 =>
  call (.add .chooser x4) <|
  obj (.choice "w1".toList []) fun x5 =>
  acc (.attr .choice x5 .slot) fun a6 =>
  obj (.slot "alpha".toList) fun x7 =>
  expr (.relate "==" (.acc a6) (.obj .slot x7)) fun e8 =>
  call (.addExpr e8) <|
  .done
example : rejects (run 2 opts ambiguous_fuzzy_name_lookup_is_rejected) = true := by decide +kernel
/-! set_name_can_rename_slots_choices_and_choosers -/
def set_name_can_rename_slots_choices_and_choosers : Script :=
  obj (.slot "slot-before".toList) fun x1 =>
  call (.add .slot x1) <|
  obj (.slot "slot-after".toList) fun x2 =>
  call (.add .slot x2) <|
  obj (.choice "choice-before".toList [(boundsInt 1 1)]) fun x3 =>
  call (.add .choice x3) <|
  obj (.choice "choice-after".toList [(boundsInt 1 1)]) fun x4 =>
  call (.add .choice x4) <|
  obj (.chooser "chooser-before".toList ([.int 0, .int 1])) fun x5 =>
  call (.add .chooser x5) <|
  call (.setName .slot x1 "Morning Session!".toList) <|
  call (.setName .choice x3 "Renamed Choice, A".toList) <|
  call (.setName .chooser x5 "Dr. Ada, Jr.".toList) <|
  obj (.choice "Renamed Choice, A".toList []) fun x6 =>
  acc (.attr .choice x6 .slot) fun a7 =>
  obj (.slot "Morning Session!".toList) fun x8 =>
  expr (.relate "==" (.acc a7) (.obj .slot x8)) fun e9 =>
  call (.addExpr e9) <|
  obj (.choice "choice-after".toList []) fun x10 =>
  acc (.attr .choice x10 .slot) fun a11 =>
  obj (.slot "slot-after".toList) fun x12 =>
  expr (.relate "==" (.acc a11) (.obj .slot x12)) fun e13 =>
  call (.addExpr e13) <|
  .done
example : printed (run 2 opts set_name_can_rename_slots_choices_and_choosers) = .inr "\"Choice\", \"Slot\"\n\"Renamed Choice, A\", \"Morning Session!\"\n\"choice-after\", \"slot-after\"\n\n\"Chooser\", \"Morning Session!\", \"slot-after\"\n\"Dr. Ada, Jr.\", \"Renamed Choice, A\", \"choice-after\"\n\n" := by decide +kernel
/-! duplicate_names_after_renaming_are_rejected -/
def duplicate_names_after_renaming_are_rejected : Script :=
  obj (.slot "s1".toList) fun x1 =>
  call (.add .slot x1) <|
  obj (.slot "s2".toList) fun x2 =>
  call (.add .slot x2) <|
  call (.setName .slot x2 "s1".toList) <|
  call (.add .slot x2) <|
  obj (.choice "c1".toList [(boundsInt 1 1)]) fun x3 =>
  call (.add .choice x3) <|
  obj (.chooser "p".toList ([.int 0])) fun x4 =>
  call (.add .chooser x4) <|
  .done
example : rejects (run 2 opts duplicate_names_after_renaming_are_rejected) = true := by decide +kernel
/-! names_with_spaces_and_punctuation_are_supported -/
def names_with_spaces_and_punctuation_are_supported : Script :=
  obj (.slot "Room, A!".toList) fun x1 =>
  call (.add .slot x1) <|
  obj (.slot "Room: B?".toList) fun x2 =>
  call (.add .slot x2) <|
  obj (.choice "Kid's Choice, Alpha".toList [(boundsInt 1 1)]) fun x3 =>
  call (.add .choice x3) <|
  obj (.choice "Beta/2026".toList [(boundsInt 1 1)]) fun x4 =>
  call (.add .choice x4) <|
  obj (.chooser "Dr. Q, Jr.".toList ([.int 0, .int 1])) fun x5 =>
  call (.add .chooser x5) <|
  obj (.choice "Kid's Choice, Alpha".toList []) fun x6 =>
  acc (.attr .choice x6 .slot) fun a7 =>
  obj (.slot "Room, A!".toList) fun x8 =>
  expr (.relate "==" (.acc a7) (.obj .slot x8)) fun e9 =>
  call (.addExpr e9) <|
  obj (.choice "Beta/2026".toList []) fun x10 =>
  acc (.attr .choice x10 .slot) fun a11 =>
  obj (.slot "Room: B?".toList) fun x12 =>
  expr (.relate "==" (.acc a11) (.obj .slot x12)) fun e13 =>
  call (.addExpr e13) <|
  .done
example : printed (run 2 opts names_with_spaces_and_punctuation_are_supported) = .inr "\"Choice\", \"Slot\"\n\"Kid's Choice, Alpha\", \"Room, A!\"\n\"Beta/2026\", \"Room: B?\"\n\n\"Chooser\", \"Room, A!\", \"Room: B?\"\n\"Dr. Q, Jr.\", \"Kid's Choice, Alpha\", \"Beta/2026\"\n\n" := by decide +kernel
/-! let_bindings_can_build_a_complete_instance -/
def let_bindings_can_build_a_complete_instance : Script :=
  obj (.slot "s1".toList) fun x1 =>
  call (.add .slot x1) <|
  obj (.choice "c1".toList [(boundsInt 1 1)]) fun x2 =>
  call (.add .choice x2) <|
  obj (.choice "c2".toList [(boundsInt 1 1)]) fun x3 =>
  call (.add .choice x3) <|
  obj (.chooser "p1".toList ([.int 1, .int 0])) fun x4 =>
  call (.add .chooser x4) <|
  obj (.chooser "p2".toList ([.int 0, .int 1])) fun x5 =>
  call (.add .chooser x5) <|
  acc (.attr .choice x2 .slot) fun a6 =>
  expr (.relate "==" (.acc a6) (.obj .slot x1)) fun e7 =>
  call (.addExpr e7) <|
  acc (.attr .choice x3 .slot) fun a8 =>
  expr (.relate "==" (.acc a8) (.obj .slot x1)) fun e9 =>
  call (.addExpr e9) <|
  acc (.attr .choice x2 .choosers) fun a10 =>
  expr (.relate "contains" (.acc a10) (.obj .chooser x4)) fun e11 =>
  call (.addExpr e11) <|
  acc (.attr .choice x3 .choosers) fun a12 =>
  expr (.relate "contains" (.acc a12) (.obj .chooser x5)) fun e13 =>
  call (.addExpr e13) <|
  .done
example : printed (run 2 opts let_bindings_can_build_a_complete_instance) = .inr "\"Chooser\", \"s1\"\n\"p1\", \"c1\"\n\"p2\", \"c2\"\n\n" := by decide +kernel
/-! if_expressions_can_conditionally_add_input -/
def if_expressions_can_conditionally_add_input : Script :=
  obj (.slot "s1".toList) fun x1 =>
  call (.add .slot x1) <|
  obj (.slot "s2".toList) fun x2 =>
  call (.add .slot x2) <|
  obj (.choice "c1".toList [(boundsInt 1 1)]) fun x3 =>
  call (.add .choice x3) <|
  obj (.choice "c2".toList [(boundsInt 1 1)]) fun x4 =>
  call (.add .choice x4) <|
  obj (.chooser "p".toList ([.int 0, .int 1])) fun x5 =>
  call (.add .chooser x5) <|
  acc (.attr .choice x3 .slot) fun a6 =>
  expr (.relate "==" (.acc a6) (.obj .slot x2)) fun e7 =>
  call (.addExpr e7) <|
  acc (.attr .choice x4 .slot) fun a8 =>
  expr (.relate "==" (.acc a8) (.obj .slot x1)) fun e9 =>
  call (.addExpr e9) <|
  .done
example : printed (run 2 opts if_expressions_can_conditionally_add_input) = .inr "\"Choice\", \"Slot\"\n\"c1\", \"s2\"\n\"c2\", \"s1\"\n\n\"Chooser\", \"s1\", \"s2\"\n\"p\", \"c2\", \"c1\"\n\n" := by decide +kernel
/-! for_loops_can_generate_repeated_input -/
def for_loops_can_generate_repeated_input : Script :=
  obj (.slot "s1".toList) fun x1 =>
  call (.add .slot x1) <|
  obj (.slot "s2".toList) fun x2 =>
  call (.add .slot x2) <|
  obj (.slot "s3".toList) fun x3 =>
  call (.add .slot x3) <|
  obj (.choice "c1".toList [(boundsInt 1 1)]) fun x4 =>
  call (.add .choice x4) <|
  obj (.choice "c2".toList [(boundsInt 1 1)]) fun x5 =>
  call (.add .choice x5) <|
  obj (.choice "c3".toList [(boundsInt 1 1)]) fun x6 =>
  call (.add .choice x6) <|
  obj (.choice "c1".toList []) fun x7 =>
  acc (.attr .choice x7 .slot) fun a8 =>
  obj (.slot "s1".toList) fun x9 =>
  expr (.relate "==" (.acc a8) (.obj .slot x9)) fun e10 =>
  call (.addExpr e10) <|
  obj (.choice "c2".toList []) fun x11 =>
  acc (.attr .choice x11 .slot) fun a12 =>
  obj (.slot "s2".toList) fun x13 =>
  expr (.relate "==" (.acc a12) (.obj .slot x13)) fun e14 =>
  call (.addExpr e14) <|
  obj (.choice "c3".toList []) fun x15 =>
  acc (.attr .choice x15 .slot) fun a16 =>
  obj (.slot "s3".toList) fun x17 =>
  expr (.relate "==" (.acc a16) (.obj .slot x17)) fun e18 =>
  call (.addExpr e18) <|
  obj (.chooser "p".toList ([.int 0, .int 1, .int 2])) fun x19 =>
  call (.add .chooser x19) <|
  .done
example : printed (run 2 opts for_loops_can_generate_repeated_input) = .inr "\"Choice\", \"Slot\"\n\"c1\", \"s1\"\n\"c2\", \"s2\"\n\"c3\", \"s3\"\n\n\"Chooser\", \"s1\", \"s2\", \"s3\"\n\"p\", \"c1\", \"c2\", \"c3\"\n\n" := by decide +kernel
/-! range_can_generate_preference_vectors -/
def range_can_generate_preference_vectors : Script :=
  obj (.slot "s1".toList) fun x1 =>
  call (.add .slot x1) <|
  obj (.choice "c2".toList [(boundsInt 1 1)]) fun x2 =>
  call (.add .choice x2) <|
  obj (.choice "c1".toList [(boundsInt 1 1)]) fun x3 =>
  call (.add .choice x3) <|
  obj (.chooser "p1".toList ((Rhai.range 0 1).map .int)) fun x4 =>
  call (.add .chooser x4) <|
  obj (.chooser "p2".toList ([.int 1, .int 0])) fun x5 =>
  call (.add .chooser x5) <|
  .done
example : printed (run 2 opts range_can_generate_preference_vectors) = .inr "\"Chooser\", \"s1\"\n\"p1\", \"c1\"\n\"p2\", \"c2\"\n\n" := by decide +kernel
/-! slice_and_end_can_select_subranges -/
def slice_and_end_can_select_subranges : Script :=
  obj (.slot "s1".toList) fun x1 =>
  call (.add .slot x1) <|
  obj (.slot "s2".toList) fun x2 =>
  call (.add .slot x2) <|
  obj (.choice "c1".toList [(boundsInt 1 1)]) fun x3 =>
  call (.add .choice x3) <|
  obj (.choice "c2".toList [(boundsInt 1 1)]) fun x4 =>
  call (.add .choice x4) <|
  obj (.chooser "p".toList ([.int 0, .int 1])) fun x5 =>
  call (.add .chooser x5) <|
  obj (.choice "c1".toList []) fun x6 =>
  acc (.attr .choice x6 .slot) fun a7 =>
  obj (.slot "s1".toList) fun x8 =>
  expr (.relate "==" (.acc a7) (.obj .slot x8)) fun e9 =>
  call (.addExpr e9) <|
  obj (.choice "c2".toList []) fun x10 =>
  acc (.attr .choice x10 .slot) fun a11 =>
  obj (.slot "s2".toList) fun x12 =>
  expr (.relate "==" (.acc a11) (.obj .slot x12)) fun e13 =>
  call (.addExpr e13) <|
  .done
example : Rhai.slice (["ignore".toList, "s1".toList, "s2".toList]) 1 9223372036854775807 = .ok (["s1".toList, "s2".toList]) := by decide +kernel
example : Rhai.slice (["ignore".toList, "c1".toList, "c2".toList]) 1 9223372036854775807 = .ok (["c1".toList, "c2".toList]) := by decide +kernel
example : printed (run 2 opts slice_and_end_can_select_subranges) = .inr "\"Choice\", \"Slot\"\n\"c1\", \"s1\"\n\"c2\", \"s2\"\n\n\"Chooser\", \"s1\", \"s2\"\n\"p\", \"c1\", \"c2\"\n\n" := by decide +kernel
/-! string_numeric_preferences_are_accepted -/
def string_numeric_preferences_are_accepted : Script :=
  obj (.slot "s1".toList) fun x1 =>
  call (.add .slot x1) <|
  obj (.choice "c1".toList [(boundsInt 1 1)]) fun x2 =>
  call (.add .choice x2) <|
  obj (.choice "c2".toList [(boundsInt 1 1)]) fun x3 =>
  call (.add .choice x3) <|
  obj (.chooser "p1".toList ([.str "1".toList, .str "0".toList])) fun x4 =>
  call (.add .chooser x4) <|
  obj (.chooser "p2".toList ([.str "0".toList, .str "1".toList])) fun x5 =>
  call (.add .chooser x5) <|
  .done
example : printed (run 2 opts string_numeric_preferences_are_accepted) = .inr "\"Chooser\", \"s1\"\n\"p1\", \"c1\"\n\"p2\", \"c2\"\n\n" := by decide +kernel
/-! auto_generated_single_slot_is_used_when_no_slots_are_declared -/
def auto_generated_single_slot_is_used_when_no_slots_are_declared : Script :=
  obj (.choice "c1".toList [(boundsInt 1 1)]) fun x1 =>
  call (.add .choice x1) <|
  obj (.chooser "p".toList ([.int 1])) fun x2 =>
  call (.add .chooser x2) <|
  .done
example : printed (run 2 opts auto_generated_single_slot_is_used_when_no_slots_are_declared) = .inr "\"Chooser\", \"Generated Slot\"\n\"p\", \"c1\"\n\n" := by decide +kernel

end Wassign.Conf.InputApi
