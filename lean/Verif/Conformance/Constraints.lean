import Verif.Conformance.Runner
import Verif.Model.Csv
/-
tests/e2e_constraints.rs: the tests of the repository, replayed on the model. Generated by tools/conformance.py.
-/
namespace Wassign.Conf.Constraints
open Reader Main Conf

set_option linter.unusedVariables false

/-! choice_equals_slot_constraint_changes_the_schedule -/
def choice_equals_slot_constraint_changes_the_schedule_baseline : Script :=
  obj (.slot "s1".toList) fun x1 =>
  call (.add .slot x1) <|
  obj (.slot "s2".toList) fun x2 =>
  call (.add .slot x2) <|
  obj (.choice "a".toList [(boundsInt 2 2)]) fun x3 =>
  call (.add .choice x3) <|
  obj (.choice "b".toList [(boundsInt 2 2)]) fun x4 =>
  call (.add .choice x4) <|
  obj (.choice "c".toList [(boundsInt 2 2)]) fun x5 =>
  call (.add .choice x5) <|
  obj (.choice "d".toList [(boundsInt 2 2)]) fun x6 =>
  call (.add .choice x6) <|
  obj (.chooser "p1".toList ([.int 100, .int 90, .int 0, .int 0])) fun x7 =>
  call (.add .chooser x7) <|
  obj (.chooser "p2".toList ([.int 100, .int 90, .int 0, .int 0])) fun x8 =>
  call (.add .chooser x8) <|
  obj (.chooser "p3".toList ([.int 0, .int 0, .int 100, .int 90])) fun x9 =>
  call (.add .chooser x9) <|
  obj (.chooser "p4".toList ([.int 0, .int 0, .int 100, .int 90])) fun x10 =>
  call (.add .chooser x10) <|
  obj (.choice "c".toList []) fun x11 =>
  acc (.attr .choice x11 .slot) fun a12 =>
  obj (.slot "s2".toList) fun x13 =>
  expr (.relate "==" (.acc a12) (.obj .slot x13)) fun e14 =>
  call (.addExpr e14) <|
  .done
example : (run 2 opts choice_equals_slot_constraint_changes_the_schedule_baseline).isOk = true := by decide +kernel
def choice_equals_slot_constraint_changes_the_schedule_constrained : Script :=
  obj (.slot "s1".toList) fun x1 =>
  call (.add .slot x1) <|
  obj (.slot "s2".toList) fun x2 =>
  call (.add .slot x2) <|
  obj (.choice "a".toList [(boundsInt 2 2)]) fun x3 =>
  call (.add .choice x3) <|
  obj (.choice "b".toList [(boundsInt 2 2)]) fun x4 =>
  call (.add .choice x4) <|
  obj (.choice "c".toList [(boundsInt 2 2)]) fun x5 =>
  call (.add .choice x5) <|
  obj (.choice "d".toList [(boundsInt 2 2)]) fun x6 =>
  call (.add .choice x6) <|
  obj (.chooser "p1".toList ([.int 100, .int 90, .int 0, .int 0])) fun x7 =>
  call (.add .chooser x7) <|
  obj (.chooser "p2".toList ([.int 100, .int 90, .int 0, .int 0])) fun x8 =>
  call (.add .chooser x8) <|
  obj (.chooser "p3".toList ([.int 0, .int 0, .int 100, .int 90])) fun x9 =>
  call (.add .chooser x9) <|
  obj (.chooser "p4".toList ([.int 0, .int 0, .int 100, .int 90])) fun x10 =>
  call (.add .chooser x10) <|
  obj (.choice "c".toList []) fun x11 =>
  acc (.attr .choice x11 .slot) fun a12 =>
  obj (.slot "s2".toList) fun x13 =>
  expr (.relate "==" (.acc a12) (.obj .slot x13)) fun e14 =>
  call (.addExpr e14) <|
  obj (.choice "a".toList []) fun x15 =>
  acc (.attr .choice x15 .slot) fun a16 =>
  obj (.slot "s2".toList) fun x17 =>
  expr (.relate "==" (.acc a16) (.obj .slot x17)) fun e18 =>
  call (.addExpr e18) <|
  .done
example : printed (run 2 opts choice_equals_slot_constraint_changes_the_schedule_constrained) = .inr "\"Choice\", \"Slot\"\n\"a\", \"s2\"\n\"b\", \"s1\"\n\"c\", \"s2\"\n\"d\", \"s1\"\n\n\"Chooser\", \"s1\", \"s2\"\n\"p1\", \"b\", \"a\"\n\"p2\", \"b\", \"a\"\n\"p3\", \"d\", \"c\"\n\"p4\", \"d\", \"c\"\n\n" := by decide +kernel
/-! part_indexed_slot_constraint_changes_the_schedule -/
def part_indexed_slot_constraint_changes_the_schedule : Script :=
  obj (.slot "s1".toList) fun x1 =>
  call (.add .slot x1) <|
  obj (.slot "s2".toList) fun x2 =>
  call (.add .slot x2) <|
  obj (.choice "c1".toList [(boundsInt 2 2)]) fun x3 =>
  call (.add .choice x3) <|
  obj (.choice "c2".toList [(boundsInt 2 2)]) fun x4 =>
  call (.add .choice x4) <|
  obj (.choice "x".toList [(boundsInt 2 2), (tagInt .parts 2)]) fun x5 =>
  call (.add .choice x5) <|
  obj (.chooser "p1".toList ([.int 1, .int 1, .int 1])) fun x6 =>
  call (.add .chooser x6) <|
  obj (.chooser "p2".toList ([.int 1, .int 1, .int 1])) fun x7 =>
  call (.add .chooser x7) <|
  obj (.chooser "p3".toList ([.int 1, .int 1, .int 1])) fun x8 =>
  call (.add .chooser x8) <|
  obj (.chooser "p4".toList ([.int 1, .int 1, .int 1])) fun x9 =>
  call (.add .chooser x9) <|
  obj (.choice "c1".toList []) fun x10 =>
  acc (.attr .choice x10 .slot) fun a11 =>
  obj (.slot "s1".toList) fun x12 =>
  expr (.relate "==" (.acc a11) (.obj .slot x12)) fun e13 =>
  call (.addExpr e13) <|
  obj (.choice "x".toList []) fun x14 =>
  acc (.attr .choice x14 (.slotPart 1)) fun a15 =>
  obj (.slot "s2".toList) fun x16 =>
  expr (.relate "==" (.acc a15) (.obj .slot x16)) fun e17 =>
  call (.addExpr e17) <|
  .done
-- the choosers are interchangeable: the test relies on the MIP solver for the second table
example : schedule (run 2 opts part_indexed_slot_constraint_changes_the_schedule) = some "\"Choice\", \"Slot\"\n\"c1\", \"s1\"\n\"c2\", \"s2\"\n\"x\", \"s1\"\n\"[2] x\", \"s2\"" := by decide +kernel
/-! choice_not_equals_slot_constraint_changes_the_schedule -/
def choice_not_equals_slot_constraint_changes_the_schedule_baseline : Script :=
  obj (.slot "s1".toList) fun x1 =>
  call (.add .slot x1) <|
  obj (.slot "s2".toList) fun x2 =>
  call (.add .slot x2) <|
  obj (.choice "a".toList [(boundsInt 2 2)]) fun x3 =>
  call (.add .choice x3) <|
  obj (.choice "b".toList [(boundsInt 2 2)]) fun x4 =>
  call (.add .choice x4) <|
  obj (.choice "c".toList [(boundsInt 2 2)]) fun x5 =>
  call (.add .choice x5) <|
  obj (.choice "d".toList [(boundsInt 2 2)]) fun x6 =>
  call (.add .choice x6) <|
  obj (.chooser "p1".toList ([.int 100, .int 90, .int 0, .int 0])) fun x7 =>
  call (.add .chooser x7) <|
  obj (.chooser "p2".toList ([.int 100, .int 90, .int 0, .int 0])) fun x8 =>
  call (.add .chooser x8) <|
  obj (.chooser "p3".toList ([.int 0, .int 0, .int 100, .int 90])) fun x9 =>
  call (.add .chooser x9) <|
  obj (.chooser "p4".toList ([.int 0, .int 0, .int 100, .int 90])) fun x10 =>
  call (.add .chooser x10) <|
  obj (.choice "c".toList []) fun x11 =>
  acc (.attr .choice x11 .slot) fun a12 =>
  obj (.slot "s2".toList) fun x13 =>
  expr (.relate "==" (.acc a12) (.obj .slot x13)) fun e14 =>
  call (.addExpr e14) <|
  .done
example : (run 2 opts choice_not_equals_slot_constraint_changes_the_schedule_baseline).isOk = true := by decide +kernel
def choice_not_equals_slot_constraint_changes_the_schedule_constrained : Script :=
  obj (.slot "s1".toList) fun x1 =>
  call (.add .slot x1) <|
  obj (.slot "s2".toList) fun x2 =>
  call (.add .slot x2) <|
  obj (.choice "a".toList [(boundsInt 2 2)]) fun x3 =>
  call (.add .choice x3) <|
  obj (.choice "b".toList [(boundsInt 2 2)]) fun x4 =>
  call (.add .choice x4) <|
  obj (.choice "c".toList [(boundsInt 2 2)]) fun x5 =>
  call (.add .choice x5) <|
  obj (.choice "d".toList [(boundsInt 2 2)]) fun x6 =>
  call (.add .choice x6) <|
  obj (.chooser "p1".toList ([.int 100, .int 90, .int 0, .int 0])) fun x7 =>
  call (.add .chooser x7) <|
  obj (.chooser "p2".toList ([.int 100, .int 90, .int 0, .int 0])) fun x8 =>
  call (.add .chooser x8) <|
  obj (.chooser "p3".toList ([.int 0, .int 0, .int 100, .int 90])) fun x9 =>
  call (.add .chooser x9) <|
  obj (.chooser "p4".toList ([.int 0, .int 0, .int 100, .int 90])) fun x10 =>
  call (.add .chooser x10) <|
  obj (.choice "c".toList []) fun x11 =>
  acc (.attr .choice x11 .slot) fun a12 =>
  obj (.slot "s2".toList) fun x13 =>
  expr (.relate "==" (.acc a12) (.obj .slot x13)) fun e14 =>
  call (.addExpr e14) <|
  obj (.choice "a".toList []) fun x15 =>
  acc (.attr .choice x15 .slot) fun a16 =>
  obj (.slot "s1".toList) fun x17 =>
  expr (.relate "!=" (.acc a16) (.obj .slot x17)) fun e18 =>
  call (.addExpr e18) <|
  .done
example : printed (run 2 opts choice_not_equals_slot_constraint_changes_the_schedule_constrained) = .inr "\"Choice\", \"Slot\"\n\"a\", \"s2\"\n\"b\", \"s1\"\n\"c\", \"s2\"\n\"d\", \"s1\"\n\n\"Chooser\", \"s1\", \"s2\"\n\"p1\", \"b\", \"a\"\n\"p2\", \"b\", \"a\"\n\"p3\", \"d\", \"c\"\n\"p4\", \"d\", \"c\"\n\n" := by decide +kernel
/-! choice_equals_choice_slot_constraint_changes_the_schedule -/
def choice_equals_choice_slot_constraint_changes_the_schedule_baseline : Script :=
  obj (.slot "s1".toList) fun x1 =>
  call (.add .slot x1) <|
  obj (.slot "s2".toList) fun x2 =>
  call (.add .slot x2) <|
  obj (.choice "a".toList [(boundsInt 2 2)]) fun x3 =>
  call (.add .choice x3) <|
  obj (.choice "b".toList [(boundsInt 2 2)]) fun x4 =>
  call (.add .choice x4) <|
  obj (.choice "c".toList [(boundsInt 2 2)]) fun x5 =>
  call (.add .choice x5) <|
  obj (.choice "d".toList [(boundsInt 2 2)]) fun x6 =>
  call (.add .choice x6) <|
  obj (.chooser "p1".toList ([.int 100, .int 90, .int 0, .int 0])) fun x7 =>
  call (.add .chooser x7) <|
  obj (.chooser "p2".toList ([.int 100, .int 90, .int 0, .int 0])) fun x8 =>
  call (.add .chooser x8) <|
  obj (.chooser "p3".toList ([.int 0, .int 0, .int 100, .int 90])) fun x9 =>
  call (.add .chooser x9) <|
  obj (.chooser "p4".toList ([.int 0, .int 0, .int 100, .int 90])) fun x10 =>
  call (.add .chooser x10) <|
  obj (.choice "c".toList []) fun x11 =>
  acc (.attr .choice x11 .slot) fun a12 =>
  obj (.slot "s2".toList) fun x13 =>
  expr (.relate "==" (.acc a12) (.obj .slot x13)) fun e14 =>
  call (.addExpr e14) <|
  .done
example : (run 2 opts choice_equals_choice_slot_constraint_changes_the_schedule_baseline).isOk = true := by decide +kernel
def choice_equals_choice_slot_constraint_changes_the_schedule_constrained : Script :=
  obj (.slot "s1".toList) fun x1 =>
  call (.add .slot x1) <|
  obj (.slot "s2".toList) fun x2 =>
  call (.add .slot x2) <|
  obj (.choice "a".toList [(boundsInt 2 2)]) fun x3 =>
  call (.add .choice x3) <|
  obj (.choice "b".toList [(boundsInt 2 2)]) fun x4 =>
  call (.add .choice x4) <|
  obj (.choice "c".toList [(boundsInt 2 2)]) fun x5 =>
  call (.add .choice x5) <|
  obj (.choice "d".toList [(boundsInt 2 2)]) fun x6 =>
  call (.add .choice x6) <|
  obj (.chooser "p1".toList ([.int 100, .int 90, .int 0, .int 0])) fun x7 =>
  call (.add .chooser x7) <|
  obj (.chooser "p2".toList ([.int 100, .int 90, .int 0, .int 0])) fun x8 =>
  call (.add .chooser x8) <|
  obj (.chooser "p3".toList ([.int 0, .int 0, .int 100, .int 90])) fun x9 =>
  call (.add .chooser x9) <|
  obj (.chooser "p4".toList ([.int 0, .int 0, .int 100, .int 90])) fun x10 =>
  call (.add .chooser x10) <|
  obj (.choice "c".toList []) fun x11 =>
  acc (.attr .choice x11 .slot) fun a12 =>
  obj (.slot "s2".toList) fun x13 =>
  expr (.relate "==" (.acc a12) (.obj .slot x13)) fun e14 =>
  call (.addExpr e14) <|
  obj (.choice "a".toList []) fun x15 =>
  acc (.attr .choice x15 .slot) fun a16 =>
  obj (.choice "c".toList []) fun x17 =>
  acc (.attr .choice x17 .slot) fun a18 =>
  expr (.relate "==" (.acc a16) (.acc a18)) fun e19 =>
  call (.addExpr e19) <|
  .done
example : printed (run 2 opts choice_equals_choice_slot_constraint_changes_the_schedule_constrained) = .inr "\"Choice\", \"Slot\"\n\"a\", \"s2\"\n\"b\", \"s1\"\n\"c\", \"s2\"\n\"d\", \"s1\"\n\n\"Chooser\", \"s1\", \"s2\"\n\"p1\", \"b\", \"a\"\n\"p2\", \"b\", \"a\"\n\"p3\", \"d\", \"c\"\n\"p4\", \"d\", \"c\"\n\n" := by decide +kernel
/-! choice_not_equals_choice_slot_constraint_changes_the_schedule -/
def choice_not_equals_choice_slot_constraint_changes_the_schedule_baseline : Script :=
  obj (.slot "s1".toList) fun x1 =>
  call (.add .slot x1) <|
  obj (.slot "s2".toList) fun x2 =>
  call (.add .slot x2) <|
  obj (.choice "a".toList [(boundsInt 2 2)]) fun x3 =>
  call (.add .choice x3) <|
  obj (.choice "b".toList [(boundsInt 2 2)]) fun x4 =>
  call (.add .choice x4) <|
  obj (.choice "c".toList [(boundsInt 2 2)]) fun x5 =>
  call (.add .choice x5) <|
  obj (.choice "d".toList [(boundsInt 2 2)]) fun x6 =>
  call (.add .choice x6) <|
  obj (.chooser "p1".toList ([.int 100, .int 90, .int 0, .int 0])) fun x7 =>
  call (.add .chooser x7) <|
  obj (.chooser "p2".toList ([.int 100, .int 90, .int 0, .int 0])) fun x8 =>
  call (.add .chooser x8) <|
  obj (.chooser "p3".toList ([.int 0, .int 0, .int 100, .int 90])) fun x9 =>
  call (.add .chooser x9) <|
  obj (.chooser "p4".toList ([.int 0, .int 0, .int 100, .int 90])) fun x10 =>
  call (.add .chooser x10) <|
  obj (.choice "c".toList []) fun x11 =>
  acc (.attr .choice x11 .slot) fun a12 =>
  obj (.slot "s2".toList) fun x13 =>
  expr (.relate "==" (.acc a12) (.obj .slot x13)) fun e14 =>
  call (.addExpr e14) <|
  .done
example : (run 2 opts choice_not_equals_choice_slot_constraint_changes_the_schedule_baseline).isOk = true := by decide +kernel
def choice_not_equals_choice_slot_constraint_changes_the_schedule_constrained : Script :=
  obj (.slot "s1".toList) fun x1 =>
  call (.add .slot x1) <|
  obj (.slot "s2".toList) fun x2 =>
  call (.add .slot x2) <|
  obj (.choice "a".toList [(boundsInt 2 2)]) fun x3 =>
  call (.add .choice x3) <|
  obj (.choice "b".toList [(boundsInt 2 2)]) fun x4 =>
  call (.add .choice x4) <|
  obj (.choice "c".toList [(boundsInt 2 2)]) fun x5 =>
  call (.add .choice x5) <|
  obj (.choice "d".toList [(boundsInt 2 2)]) fun x6 =>
  call (.add .choice x6) <|
  obj (.chooser "p1".toList ([.int 100, .int 90, .int 0, .int 0])) fun x7 =>
  call (.add .chooser x7) <|
  obj (.chooser "p2".toList ([.int 100, .int 90, .int 0, .int 0])) fun x8 =>
  call (.add .chooser x8) <|
  obj (.chooser "p3".toList ([.int 0, .int 0, .int 100, .int 90])) fun x9 =>
  call (.add .chooser x9) <|
  obj (.chooser "p4".toList ([.int 0, .int 0, .int 100, .int 90])) fun x10 =>
  call (.add .chooser x10) <|
  obj (.choice "c".toList []) fun x11 =>
  acc (.attr .choice x11 .slot) fun a12 =>
  obj (.slot "s2".toList) fun x13 =>
  expr (.relate "==" (.acc a12) (.obj .slot x13)) fun e14 =>
  call (.addExpr e14) <|
  obj (.choice "a".toList []) fun x15 =>
  acc (.attr .choice x15 .slot) fun a16 =>
  obj (.choice "d".toList []) fun x17 =>
  acc (.attr .choice x17 .slot) fun a18 =>
  expr (.relate "!=" (.acc a16) (.acc a18)) fun e19 =>
  call (.addExpr e19) <|
  .done
example : printed (run 2 opts choice_not_equals_choice_slot_constraint_changes_the_schedule_constrained) = .inr "\"Choice\", \"Slot\"\n\"a\", \"s2\"\n\"b\", \"s1\"\n\"c\", \"s2\"\n\"d\", \"s1\"\n\n\"Chooser\", \"s1\", \"s2\"\n\"p1\", \"b\", \"a\"\n\"p2\", \"b\", \"a\"\n\"p3\", \"d\", \"c\"\n\"p4\", \"d\", \"c\"\n\n" := by decide +kernel
/-! slot_contains_choice_constraint_changes_the_schedule -/
def slot_contains_choice_constraint_changes_the_schedule_baseline : Script :=
  obj (.slot "s1".toList) fun x1 =>
  call (.add .slot x1) <|
  obj (.slot "s2".toList) fun x2 =>
  call (.add .slot x2) <|
  obj (.choice "a".toList [(boundsInt 2 2)]) fun x3 =>
  call (.add .choice x3) <|
  obj (.choice "b".toList [(boundsInt 2 2)]) fun x4 =>
  call (.add .choice x4) <|
  obj (.choice "c".toList [(boundsInt 2 2)]) fun x5 =>
  call (.add .choice x5) <|
  obj (.choice "d".toList [(boundsInt 2 2)]) fun x6 =>
  call (.add .choice x6) <|
  obj (.chooser "p1".toList ([.int 100, .int 90, .int 0, .int 0])) fun x7 =>
  call (.add .chooser x7) <|
  obj (.chooser "p2".toList ([.int 100, .int 90, .int 0, .int 0])) fun x8 =>
  call (.add .chooser x8) <|
  obj (.chooser "p3".toList ([.int 0, .int 0, .int 100, .int 90])) fun x9 =>
  call (.add .chooser x9) <|
  obj (.chooser "p4".toList ([.int 0, .int 0, .int 100, .int 90])) fun x10 =>
  call (.add .chooser x10) <|
  obj (.choice "c".toList []) fun x11 =>
  acc (.attr .choice x11 .slot) fun a12 =>
  obj (.slot "s2".toList) fun x13 =>
  expr (.relate "==" (.acc a12) (.obj .slot x13)) fun e14 =>
  call (.addExpr e14) <|
  .done
example : (run 2 opts slot_contains_choice_constraint_changes_the_schedule_baseline).isOk = true := by decide +kernel
def slot_contains_choice_constraint_changes_the_schedule_constrained : Script :=
  obj (.slot "s1".toList) fun x1 =>
  call (.add .slot x1) <|
  obj (.slot "s2".toList) fun x2 =>
  call (.add .slot x2) <|
  obj (.choice "a".toList [(boundsInt 2 2)]) fun x3 =>
  call (.add .choice x3) <|
  obj (.choice "b".toList [(boundsInt 2 2)]) fun x4 =>
  call (.add .choice x4) <|
  obj (.choice "c".toList [(boundsInt 2 2)]) fun x5 =>
  call (.add .choice x5) <|
  obj (.choice "d".toList [(boundsInt 2 2)]) fun x6 =>
  call (.add .choice x6) <|
  obj (.chooser "p1".toList ([.int 100, .int 90, .int 0, .int 0])) fun x7 =>
  call (.add .chooser x7) <|
  obj (.chooser "p2".toList ([.int 100, .int 90, .int 0, .int 0])) fun x8 =>
  call (.add .chooser x8) <|
  obj (.chooser "p3".toList ([.int 0, .int 0, .int 100, .int 90])) fun x9 =>
  call (.add .chooser x9) <|
  obj (.chooser "p4".toList ([.int 0, .int 0, .int 100, .int 90])) fun x10 =>
  call (.add .chooser x10) <|
  obj (.choice "c".toList []) fun x11 =>
  acc (.attr .choice x11 .slot) fun a12 =>
  obj (.slot "s2".toList) fun x13 =>
  expr (.relate "==" (.acc a12) (.obj .slot x13)) fun e14 =>
  call (.addExpr e14) <|
  obj (.slot "s2".toList) fun x15 =>
  acc (.attr .slot x15 .choices) fun a16 =>
  obj (.choice "a".toList []) fun x17 =>
  expr (.relate "contains" (.acc a16) (.obj .choice x17)) fun e18 =>
  call (.addExpr e18) <|
  .done
example : printed (run 2 opts slot_contains_choice_constraint_changes_the_schedule_constrained) = .inr "\"Choice\", \"Slot\"\n\"a\", \"s2\"\n\"b\", \"s1\"\n\"c\", \"s2\"\n\"d\", \"s1\"\n\n\"Chooser\", \"s1\", \"s2\"\n\"p1\", \"b\", \"a\"\n\"p2\", \"b\", \"a\"\n\"p3\", \"d\", \"c\"\n\"p4\", \"d\", \"c\"\n\n" := by decide +kernel
/-! slot_contains_not_choice_constraint_changes_the_schedule -/
def slot_contains_not_choice_constraint_changes_the_schedule_baseline : Script :=
  obj (.slot "s1".toList) fun x1 =>
  call (.add .slot x1) <|
  obj (.slot "s2".toList) fun x2 =>
  call (.add .slot x2) <|
  obj (.choice "a".toList [(boundsInt 2 2)]) fun x3 =>
  call (.add .choice x3) <|
  obj (.choice "b".toList [(boundsInt 2 2)]) fun x4 =>
  call (.add .choice x4) <|
  obj (.choice "c".toList [(boundsInt 2 2)]) fun x5 =>
  call (.add .choice x5) <|
  obj (.choice "d".toList [(boundsInt 2 2)]) fun x6 =>
  call (.add .choice x6) <|
  obj (.chooser "p1".toList ([.int 100, .int 90, .int 0, .int 0])) fun x7 =>
  call (.add .chooser x7) <|
  obj (.chooser "p2".toList ([.int 100, .int 90, .int 0, .int 0])) fun x8 =>
  call (.add .chooser x8) <|
  obj (.chooser "p3".toList ([.int 0, .int 0, .int 100, .int 90])) fun x9 =>
  call (.add .chooser x9) <|
  obj (.chooser "p4".toList ([.int 0, .int 0, .int 100, .int 90])) fun x10 =>
  call (.add .chooser x10) <|
  obj (.choice "c".toList []) fun x11 =>
  acc (.attr .choice x11 .slot) fun a12 =>
  obj (.slot "s2".toList) fun x13 =>
  expr (.relate "==" (.acc a12) (.obj .slot x13)) fun e14 =>
  call (.addExpr e14) <|
  .done
example : (run 2 opts slot_contains_not_choice_constraint_changes_the_schedule_baseline).isOk = true := by decide +kernel
def slot_contains_not_choice_constraint_changes_the_schedule_constrained : Script :=
  obj (.slot "s1".toList) fun x1 =>
  call (.add .slot x1) <|
  obj (.slot "s2".toList) fun x2 =>
  call (.add .slot x2) <|
  obj (.choice "a".toList [(boundsInt 2 2)]) fun x3 =>
  call (.add .choice x3) <|
  obj (.choice "b".toList [(boundsInt 2 2)]) fun x4 =>
  call (.add .choice x4) <|
  obj (.choice "c".toList [(boundsInt 2 2)]) fun x5 =>
  call (.add .choice x5) <|
  obj (.choice "d".toList [(boundsInt 2 2)]) fun x6 =>
  call (.add .choice x6) <|
  obj (.chooser "p1".toList ([.int 100, .int 90, .int 0, .int 0])) fun x7 =>
  call (.add .chooser x7) <|
  obj (.chooser "p2".toList ([.int 100, .int 90, .int 0, .int 0])) fun x8 =>
  call (.add .chooser x8) <|
  obj (.chooser "p3".toList ([.int 0, .int 0, .int 100, .int 90])) fun x9 =>
  call (.add .chooser x9) <|
  obj (.chooser "p4".toList ([.int 0, .int 0, .int 100, .int 90])) fun x10 =>
  call (.add .chooser x10) <|
  obj (.choice "c".toList []) fun x11 =>
  acc (.attr .choice x11 .slot) fun a12 =>
  obj (.slot "s2".toList) fun x13 =>
  expr (.relate "==" (.acc a12) (.obj .slot x13)) fun e14 =>
  call (.addExpr e14) <|
  obj (.slot "s1".toList) fun x15 =>
  acc (.attr .slot x15 .choices) fun a16 =>
  obj (.choice "a".toList []) fun x17 =>
  expr (.relate "contains_not" (.acc a16) (.obj .choice x17)) fun e18 =>
  call (.addExpr e18) <|
  .done
example : printed (run 2 opts slot_contains_not_choice_constraint_changes_the_schedule_constrained) = .inr "\"Choice\", \"Slot\"\n\"a\", \"s2\"\n\"b\", \"s1\"\n\"c\", \"s2\"\n\"d\", \"s1\"\n\n\"Chooser\", \"s1\", \"s2\"\n\"p1\", \"b\", \"a\"\n\"p2\", \"b\", \"a\"\n\"p3\", \"d\", \"c\"\n\"p4\", \"d\", \"c\"\n\n" := by decide +kernel
/-! slots_have_same_choices_constraint_changes_the_schedule -/
def slots_have_same_choices_constraint_changes_the_schedule : Script :=
  obj (.slot "s1".toList) fun x1 =>
  call (.add .slot x1) <|
  obj (.slot "s2".toList) fun x2 =>
  call (.add .slot x2) <|
  obj (.choice "a".toList [(boundsInt 2 2)]) fun x3 =>
  call (.add .choice x3) <|
  obj (.choice "b".toList [(boundsInt 2 2)]) fun x4 =>
  call (.add .choice x4) <|
  obj (.choice "c".toList [(boundsInt 2 2)]) fun x5 =>
  call (.add .choice x5) <|
  obj (.choice "d".toList [(boundsInt 2 2)]) fun x6 =>
  call (.add .choice x6) <|
  obj (.chooser "p1".toList ([.int 100, .int 90, .int 0, .int 0])) fun x7 =>
  call (.add .chooser x7) <|
  obj (.chooser "p2".toList ([.int 100, .int 90, .int 0, .int 0])) fun x8 =>
  call (.add .chooser x8) <|
  obj (.chooser "p3".toList ([.int 0, .int 0, .int 100, .int 90])) fun x9 =>
  call (.add .chooser x9) <|
  obj (.chooser "p4".toList ([.int 0, .int 0, .int 100, .int 90])) fun x10 =>
  call (.add .chooser x10) <|
  obj (.choice "c".toList []) fun x11 =>
  acc (.attr .choice x11 .slot) fun a12 =>
  obj (.slot "s2".toList) fun x13 =>
  expr (.relate "==" (.acc a12) (.obj .slot x13)) fun e14 =>
  call (.addExpr e14) <|
  obj (.slot "s1".toList) fun x15 =>
  acc (.attr .slot x15 .choices) fun a16 =>
  obj (.slot "s2".toList) fun x17 =>
  acc (.attr .slot x17 .choices) fun a18 =>
  expr (.relate "==" (.acc a16) (.acc a18)) fun e19 =>
  call (.addExpr e19) <|
  .done
example : rejects (run 2 opts slots_have_same_choices_constraint_changes_the_schedule) = true := by decide +kernel
/-! slot_size_eq_constraint_accepts_the_matching_boundary -/
def slot_size_eq_constraint_accepts_the_matching_boundary : Script :=
  obj (.slot "s1".toList) fun x1 =>
  call (.add .slot x1) <|
  obj (.slot "s2".toList) fun x2 =>
  call (.add .slot x2) <|
  obj (.choice "a".toList [(boundsInt 2 2)]) fun x3 =>
  call (.add .choice x3) <|
  obj (.choice "b".toList [(boundsInt 2 2)]) fun x4 =>
  call (.add .choice x4) <|
  obj (.choice "c".toList [(boundsInt 2 2)]) fun x5 =>
  call (.add .choice x5) <|
  obj (.choice "d".toList [(boundsInt 2 2)]) fun x6 =>
  call (.add .choice x6) <|
  obj (.chooser "p1".toList ([.int 100, .int 0, .int 100, .int 0])) fun x7 =>
  call (.add .chooser x7) <|
  obj (.chooser "p2".toList ([.int 100, .int 0, .int 100, .int 0])) fun x8 =>
  call (.add .chooser x8) <|
  obj (.chooser "p3".toList ([.int 0, .int 100, .int 0, .int 100])) fun x9 =>
  call (.add .chooser x9) <|
  obj (.chooser "p4".toList ([.int 0, .int 100, .int 0, .int 100])) fun x10 =>
  call (.add .chooser x10) <|
  obj (.choice "a".toList []) fun x11 =>
  acc (.attr .choice x11 .slot) fun a12 =>
  obj (.slot "s1".toList) fun x13 =>
  expr (.relate "==" (.acc a12) (.obj .slot x13)) fun e14 =>
  call (.addExpr e14) <|
  obj (.choice "b".toList []) fun x15 =>
  acc (.attr .choice x15 .slot) fun a16 =>
  obj (.slot "s1".toList) fun x17 =>
  expr (.relate "==" (.acc a16) (.obj .slot x17)) fun e18 =>
  call (.addExpr e18) <|
  obj (.choice "c".toList []) fun x19 =>
  acc (.attr .choice x19 .slot) fun a20 =>
  obj (.slot "s2".toList) fun x21 =>
  expr (.relate "==" (.acc a20) (.obj .slot x21)) fun e22 =>
  call (.addExpr e22) <|
  obj (.choice "d".toList []) fun x23 =>
  acc (.attr .choice x23 .slot) fun a24 =>
  obj (.slot "s2".toList) fun x25 =>
  expr (.relate "==" (.acc a24) (.obj .slot x25)) fun e26 =>
  call (.addExpr e26) <|
  obj (.slot "s1".toList) fun x27 =>
  acc (.attr .slot x27 .size) fun a28 =>
  expr (.relate "==" (.acc a28) (.int 2)) fun e29 =>
  call (.addExpr e29) <|
  .done
example : printed (run 2 opts slot_size_eq_constraint_accepts_the_matching_boundary) = .inr "\"Choice\", \"Slot\"\n\"a\", \"s1\"\n\"b\", \"s1\"\n\"c\", \"s2\"\n\"d\", \"s2\"\n\n\"Chooser\", \"s1\", \"s2\"\n\"p1\", \"a\", \"c\"\n\"p2\", \"a\", \"c\"\n\"p3\", \"b\", \"d\"\n\"p4\", \"b\", \"d\"\n\n" := by decide +kernel
/-! slot_size_neq_constraint_rejects_the_matching_boundary -/
def slot_size_neq_constraint_rejects_the_matching_boundary : Script :=
  obj (.slot "s1".toList) fun x1 =>
  call (.add .slot x1) <|
  obj (.slot "s2".toList) fun x2 =>
  call (.add .slot x2) <|
  obj (.choice "a".toList [(boundsInt 2 2)]) fun x3 =>
  call (.add .choice x3) <|
  obj (.choice "b".toList [(boundsInt 2 2)]) fun x4 =>
  call (.add .choice x4) <|
  obj (.choice "c".toList [(boundsInt 2 2)]) fun x5 =>
  call (.add .choice x5) <|
  obj (.choice "d".toList [(boundsInt 2 2)]) fun x6 =>
  call (.add .choice x6) <|
  obj (.chooser "p1".toList ([.int 100, .int 0, .int 100, .int 0])) fun x7 =>
  call (.add .chooser x7) <|
  obj (.chooser "p2".toList ([.int 100, .int 0, .int 100, .int 0])) fun x8 =>
  call (.add .chooser x8) <|
  obj (.chooser "p3".toList ([.int 0, .int 100, .int 0, .int 100])) fun x9 =>
  call (.add .chooser x9) <|
  obj (.chooser "p4".toList ([.int 0, .int 100, .int 0, .int 100])) fun x10 =>
  call (.add .chooser x10) <|
  obj (.choice "a".toList []) fun x11 =>
  acc (.attr .choice x11 .slot) fun a12 =>
  obj (.slot "s1".toList) fun x13 =>
  expr (.relate "==" (.acc a12) (.obj .slot x13)) fun e14 =>
  call (.addExpr e14) <|
  obj (.choice "b".toList []) fun x15 =>
  acc (.attr .choice x15 .slot) fun a16 =>
  obj (.slot "s1".toList) fun x17 =>
  expr (.relate "==" (.acc a16) (.obj .slot x17)) fun e18 =>
  call (.addExpr e18) <|
  obj (.choice "c".toList []) fun x19 =>
  acc (.attr .choice x19 .slot) fun a20 =>
  obj (.slot "s2".toList) fun x21 =>
  expr (.relate "==" (.acc a20) (.obj .slot x21)) fun e22 =>
  call (.addExpr e22) <|
  obj (.choice "d".toList []) fun x23 =>
  acc (.attr .choice x23 .slot) fun a24 =>
  obj (.slot "s2".toList) fun x25 =>
  expr (.relate "==" (.acc a24) (.obj .slot x25)) fun e26 =>
  call (.addExpr e26) <|
  obj (.slot "s1".toList) fun x27 =>
  acc (.attr .slot x27 .size) fun a28 =>
  expr (.relate "!=" (.acc a28) (.int 2)) fun e29 =>
  call (.addExpr e29) <|
  .done
example : printed (run 2 opts slot_size_neq_constraint_rejects_the_matching_boundary) = .inr "" := by decide +kernel
/-! slot_size_lt_constraint_rejects_equal_slot_sizes -/
def slot_size_lt_constraint_rejects_equal_slot_sizes : Script :=
  obj (.slot "s1".toList) fun x1 =>
  call (.add .slot x1) <|
  obj (.slot "s2".toList) fun x2 =>
  call (.add .slot x2) <|
  obj (.choice "a".toList [(boundsInt 2 2)]) fun x3 =>
  call (.add .choice x3) <|
  obj (.choice "b".toList [(boundsInt 2 2)]) fun x4 =>
  call (.add .choice x4) <|
  obj (.choice "c".toList [(boundsInt 2 2)]) fun x5 =>
  call (.add .choice x5) <|
  obj (.choice "d".toList [(boundsInt 2 2)]) fun x6 =>
  call (.add .choice x6) <|
  obj (.chooser "p1".toList ([.int 100, .int 0, .int 100, .int 0])) fun x7 =>
  call (.add .chooser x7) <|
  obj (.chooser "p2".toList ([.int 100, .int 0, .int 100, .int 0])) fun x8 =>
  call (.add .chooser x8) <|
  obj (.chooser "p3".toList ([.int 0, .int 100, .int 0, .int 100])) fun x9 =>
  call (.add .chooser x9) <|
  obj (.chooser "p4".toList ([.int 0, .int 100, .int 0, .int 100])) fun x10 =>
  call (.add .chooser x10) <|
  obj (.choice "a".toList []) fun x11 =>
  acc (.attr .choice x11 .slot) fun a12 =>
  obj (.slot "s1".toList) fun x13 =>
  expr (.relate "==" (.acc a12) (.obj .slot x13)) fun e14 =>
  call (.addExpr e14) <|
  obj (.choice "b".toList []) fun x15 =>
  acc (.attr .choice x15 .slot) fun a16 =>
  obj (.slot "s1".toList) fun x17 =>
  expr (.relate "==" (.acc a16) (.obj .slot x17)) fun e18 =>
  call (.addExpr e18) <|
  obj (.choice "c".toList []) fun x19 =>
  acc (.attr .choice x19 .slot) fun a20 =>
  obj (.slot "s2".toList) fun x21 =>
  expr (.relate "==" (.acc a20) (.obj .slot x21)) fun e22 =>
  call (.addExpr e22) <|
  obj (.choice "d".toList []) fun x23 =>
  acc (.attr .choice x23 .slot) fun a24 =>
  obj (.slot "s2".toList) fun x25 =>
  expr (.relate "==" (.acc a24) (.obj .slot x25)) fun e26 =>
  call (.addExpr e26) <|
  obj (.slot "s1".toList) fun x27 =>
  acc (.attr .slot x27 .size) fun a28 =>
  expr (.relate "<" (.acc a28) (.int 2)) fun e29 =>
  call (.addExpr e29) <|
  .done
example : printed (run 2 opts slot_size_lt_constraint_rejects_equal_slot_sizes) = .inr "" := by decide +kernel
/-! slot_size_leq_constraint_accepts_equal_slot_sizes -/
def slot_size_leq_constraint_accepts_equal_slot_sizes : Script :=
  obj (.slot "s1".toList) fun x1 =>
  call (.add .slot x1) <|
  obj (.slot "s2".toList) fun x2 =>
  call (.add .slot x2) <|
  obj (.choice "a".toList [(boundsInt 2 2)]) fun x3 =>
  call (.add .choice x3) <|
  obj (.choice "b".toList [(boundsInt 2 2)]) fun x4 =>
  call (.add .choice x4) <|
  obj (.choice "c".toList [(boundsInt 2 2)]) fun x5 =>
  call (.add .choice x5) <|
  obj (.choice "d".toList [(boundsInt 2 2)]) fun x6 =>
  call (.add .choice x6) <|
  obj (.chooser "p1".toList ([.int 100, .int 0, .int 100, .int 0])) fun x7 =>
  call (.add .chooser x7) <|
  obj (.chooser "p2".toList ([.int 100, .int 0, .int 100, .int 0])) fun x8 =>
  call (.add .chooser x8) <|
  obj (.chooser "p3".toList ([.int 0, .int 100, .int 0, .int 100])) fun x9 =>
  call (.add .chooser x9) <|
  obj (.chooser "p4".toList ([.int 0, .int 100, .int 0, .int 100])) fun x10 =>
  call (.add .chooser x10) <|
  obj (.choice "a".toList []) fun x11 =>
  acc (.attr .choice x11 .slot) fun a12 =>
  obj (.slot "s1".toList) fun x13 =>
  expr (.relate "==" (.acc a12) (.obj .slot x13)) fun e14 =>
  call (.addExpr e14) <|
  obj (.choice "b".toList []) fun x15 =>
  acc (.attr .choice x15 .slot) fun a16 =>
  obj (.slot "s1".toList) fun x17 =>
  expr (.relate "==" (.acc a16) (.obj .slot x17)) fun e18 =>
  call (.addExpr e18) <|
  obj (.choice "c".toList []) fun x19 =>
  acc (.attr .choice x19 .slot) fun a20 =>
  obj (.slot "s2".toList) fun x21 =>
  expr (.relate "==" (.acc a20) (.obj .slot x21)) fun e22 =>
  call (.addExpr e22) <|
  obj (.choice "d".toList []) fun x23 =>
  acc (.attr .choice x23 .slot) fun a24 =>
  obj (.slot "s2".toList) fun x25 =>
  expr (.relate "==" (.acc a24) (.obj .slot x25)) fun e26 =>
  call (.addExpr e26) <|
  obj (.slot "s1".toList) fun x27 =>
  acc (.attr .slot x27 .size) fun a28 =>
  expr (.relate "<=" (.acc a28) (.int 2)) fun e29 =>
  call (.addExpr e29) <|
  .done
example : printed (run 2 opts slot_size_leq_constraint_accepts_equal_slot_sizes) = .inr "\"Choice\", \"Slot\"\n\"a\", \"s1\"\n\"b\", \"s1\"\n\"c\", \"s2\"\n\"d\", \"s2\"\n\n\"Chooser\", \"s1\", \"s2\"\n\"p1\", \"a\", \"c\"\n\"p2\", \"a\", \"c\"\n\"p3\", \"b\", \"d\"\n\"p4\", \"b\", \"d\"\n\n" := by decide +kernel
/-! slot_size_gt_constraint_rejects_equal_slot_sizes -/
def slot_size_gt_constraint_rejects_equal_slot_sizes : Script :=
  obj (.slot "s1".toList) fun x1 =>
  call (.add .slot x1) <|
  obj (.slot "s2".toList) fun x2 =>
  call (.add .slot x2) <|
  obj (.choice "a".toList [(boundsInt 2 2)]) fun x3 =>
  call (.add .choice x3) <|
  obj (.choice "b".toList [(boundsInt 2 2)]) fun x4 =>
  call (.add .choice x4) <|
  obj (.choice "c".toList [(boundsInt 2 2)]) fun x5 =>
  call (.add .choice x5) <|
  obj (.choice "d".toList [(boundsInt 2 2)]) fun x6 =>
  call (.add .choice x6) <|
  obj (.chooser "p1".toList ([.int 100, .int 0, .int 100, .int 0])) fun x7 =>
  call (.add .chooser x7) <|
  obj (.chooser "p2".toList ([.int 100, .int 0, .int 100, .int 0])) fun x8 =>
  call (.add .chooser x8) <|
  obj (.chooser "p3".toList ([.int 0, .int 100, .int 0, .int 100])) fun x9 =>
  call (.add .chooser x9) <|
  obj (.chooser "p4".toList ([.int 0, .int 100, .int 0, .int 100])) fun x10 =>
  call (.add .chooser x10) <|
  obj (.choice "a".toList []) fun x11 =>
  acc (.attr .choice x11 .slot) fun a12 =>
  obj (.slot "s1".toList) fun x13 =>
  expr (.relate "==" (.acc a12) (.obj .slot x13)) fun e14 =>
  call (.addExpr e14) <|
  obj (.choice "b".toList []) fun x15 =>
  acc (.attr .choice x15 .slot) fun a16 =>
  obj (.slot "s1".toList) fun x17 =>
  expr (.relate "==" (.acc a16) (.obj .slot x17)) fun e18 =>
  call (.addExpr e18) <|
  obj (.choice "c".toList []) fun x19 =>
  acc (.attr .choice x19 .slot) fun a20 =>
  obj (.slot "s2".toList) fun x21 =>
  expr (.relate "==" (.acc a20) (.obj .slot x21)) fun e22 =>
  call (.addExpr e22) <|
  obj (.choice "d".toList []) fun x23 =>
  acc (.attr .choice x23 .slot) fun a24 =>
  obj (.slot "s2".toList) fun x25 =>
  expr (.relate "==" (.acc a24) (.obj .slot x25)) fun e26 =>
  call (.addExpr e26) <|
  obj (.slot "s1".toList) fun x27 =>
  acc (.attr .slot x27 .size) fun a28 =>
  expr (.relate ">" (.acc a28) (.int 2)) fun e29 =>
  call (.addExpr e29) <|
  .done
example : printed (run 2 opts slot_size_gt_constraint_rejects_equal_slot_sizes) = .inr "" := by decide +kernel
/-! slot_size_geq_constraint_accepts_equal_slot_sizes -/
def slot_size_geq_constraint_accepts_equal_slot_sizes : Script :=
  obj (.slot "s1".toList) fun x1 =>
  call (.add .slot x1) <|
  obj (.slot "s2".toList) fun x2 =>
  call (.add .slot x2) <|
  obj (.choice "a".toList [(boundsInt 2 2)]) fun x3 =>
  call (.add .choice x3) <|
  obj (.choice "b".toList [(boundsInt 2 2)]) fun x4 =>
  call (.add .choice x4) <|
  obj (.choice "c".toList [(boundsInt 2 2)]) fun x5 =>
  call (.add .choice x5) <|
  obj (.choice "d".toList [(boundsInt 2 2)]) fun x6 =>
  call (.add .choice x6) <|
  obj (.chooser "p1".toList ([.int 100, .int 0, .int 100, .int 0])) fun x7 =>
  call (.add .chooser x7) <|
  obj (.chooser "p2".toList ([.int 100, .int 0, .int 100, .int 0])) fun x8 =>
  call (.add .chooser x8) <|
  obj (.chooser "p3".toList ([.int 0, .int 100, .int 0, .int 100])) fun x9 =>
  call (.add .chooser x9) <|
  obj (.chooser "p4".toList ([.int 0, .int 100, .int 0, .int 100])) fun x10 =>
  call (.add .chooser x10) <|
  obj (.choice "a".toList []) fun x11 =>
  acc (.attr .choice x11 .slot) fun a12 =>
  obj (.slot "s1".toList) fun x13 =>
  expr (.relate "==" (.acc a12) (.obj .slot x13)) fun e14 =>
  call (.addExpr e14) <|
  obj (.choice "b".toList []) fun x15 =>
  acc (.attr .choice x15 .slot) fun a16 =>
  obj (.slot "s1".toList) fun x17 =>
  expr (.relate "==" (.acc a16) (.obj .slot x17)) fun e18 =>
  call (.addExpr e18) <|
  obj (.choice "c".toList []) fun x19 =>
  acc (.attr .choice x19 .slot) fun a20 =>
  obj (.slot "s2".toList) fun x21 =>
  expr (.relate "==" (.acc a20) (.obj .slot x21)) fun e22 =>
  call (.addExpr e22) <|
  obj (.choice "d".toList []) fun x23 =>
  acc (.attr .choice x23 .slot) fun a24 =>
  obj (.slot "s2".toList) fun x25 =>
  expr (.relate "==" (.acc a24) (.obj .slot x25)) fun e26 =>
  call (.addExpr e26) <|
  obj (.slot "s1".toList) fun x27 =>
  acc (.attr .slot x27 .size) fun a28 =>
  expr (.relate ">=" (.acc a28) (.int 2)) fun e29 =>
  call (.addExpr e29) <|
  .done
example : printed (run 2 opts slot_size_geq_constraint_accepts_equal_slot_sizes) = .inr "\"Choice\", \"Slot\"\n\"a\", \"s1\"\n\"b\", \"s1\"\n\"c\", \"s2\"\n\"d\", \"s2\"\n\n\"Chooser\", \"s1\", \"s2\"\n\"p1\", \"a\", \"c\"\n\"p2\", \"a\", \"c\"\n\"p3\", \"b\", \"d\"\n\"p4\", \"b\", \"d\"\n\n" := by decide +kernel
/-! choice_choosers_equality_constraint_changes_the_assignment -/
def choice_choosers_equality_constraint_changes_the_assignment : Script :=
  obj (.slot "s1".toList) fun x1 =>
  call (.add .slot x1) <|
  obj (.slot "s2".toList) fun x2 =>
  call (.add .slot x2) <|
  obj (.choice "c1".toList [(boundsInt 2 2)]) fun x3 =>
  call (.add .choice x3) <|
  obj (.choice "c2".toList [(boundsInt 2 2)]) fun x4 =>
  call (.add .choice x4) <|
  obj (.choice "c3".toList [(boundsInt 2 2)]) fun x5 =>
  call (.add .choice x5) <|
  obj (.choice "c4".toList [(boundsInt 2 2)]) fun x6 =>
  call (.add .choice x6) <|
  obj (.chooser "p1".toList ([.int 100, .int 0, .int 100, .int 50])) fun x7 =>
  call (.add .chooser x7) <|
  obj (.chooser "p2".toList ([.int 100, .int 0, .int 100, .int 50])) fun x8 =>
  call (.add .chooser x8) <|
  obj (.chooser "p3".toList ([.int 0, .int 100, .int 50, .int 100])) fun x9 =>
  call (.add .chooser x9) <|
  obj (.chooser "p4".toList ([.int 0, .int 100, .int 70, .int 100])) fun x10 =>
  call (.add .chooser x10) <|
  obj (.choice "c1".toList []) fun x11 =>
  acc (.attr .choice x11 .slot) fun a12 =>
  obj (.slot "s1".toList) fun x13 =>
  expr (.relate "==" (.acc a12) (.obj .slot x13)) fun e14 =>
  call (.addExpr e14) <|
  obj (.choice "c2".toList []) fun x15 =>
  acc (.attr .choice x15 .slot) fun a16 =>
  obj (.slot "s1".toList) fun x17 =>
  expr (.relate "==" (.acc a16) (.obj .slot x17)) fun e18 =>
  call (.addExpr e18) <|
  obj (.choice "c3".toList []) fun x19 =>
  acc (.attr .choice x19 .slot) fun a20 =>
  obj (.slot "s2".toList) fun x21 =>
  expr (.relate "==" (.acc a20) (.obj .slot x21)) fun e22 =>
  call (.addExpr e22) <|
  obj (.choice "c4".toList []) fun x23 =>
  acc (.attr .choice x23 .slot) fun a24 =>
  obj (.slot "s2".toList) fun x25 =>
  expr (.relate "==" (.acc a24) (.obj .slot x25)) fun e26 =>
  call (.addExpr e26) <|
  obj (.choice "c1".toList []) fun x27 =>
  acc (.attr .choice x27 .choosers) fun a28 =>
  obj (.choice "c4".toList []) fun x29 =>
  acc (.attr .choice x29 .choosers) fun a30 =>
  expr (.relate "==" (.acc a28) (.acc a30)) fun e31 =>
  call (.addExpr e31) <|
  .done
example : printed (run 2 opts choice_choosers_equality_constraint_changes_the_assignment) = .inr "\"Choice\", \"Slot\"\n\"c1\", \"s1\"\n\"c2\", \"s1\"\n\"c3\", \"s2\"\n\"c4\", \"s2\"\n\n\"Chooser\", \"s1\", \"s2\"\n\"p1\", \"c1\", \"c4\"\n\"p2\", \"c1\", \"c4\"\n\"p3\", \"c2\", \"c3\"\n\"p4\", \"c2\", \"c3\"\n\n" := by decide +kernel
/-! choice_contains_chooser_constraint_changes_the_assignment -/
def choice_contains_chooser_constraint_changes_the_assignment : Script :=
  obj (.slot "s1".toList) fun x1 =>
  call (.add .slot x1) <|
  obj (.slot "s2".toList) fun x2 =>
  call (.add .slot x2) <|
  obj (.choice "c1".toList [(boundsInt 2 2)]) fun x3 =>
  call (.add .choice x3) <|
  obj (.choice "c2".toList [(boundsInt 2 2)]) fun x4 =>
  call (.add .choice x4) <|
  obj (.choice "c3".toList [(boundsInt 2 2)]) fun x5 =>
  call (.add .choice x5) <|
  obj (.choice "c4".toList [(boundsInt 2 2)]) fun x6 =>
  call (.add .choice x6) <|
  obj (.chooser "p1".toList ([.int 100, .int 0, .int 100, .int 50])) fun x7 =>
  call (.add .chooser x7) <|
  obj (.chooser "p2".toList ([.int 100, .int 0, .int 100, .int 50])) fun x8 =>
  call (.add .chooser x8) <|
  obj (.chooser "p3".toList ([.int 0, .int 100, .int 50, .int 100])) fun x9 =>
  call (.add .chooser x9) <|
  obj (.chooser "p4".toList ([.int 0, .int 100, .int 70, .int 100])) fun x10 =>
  call (.add .chooser x10) <|
  obj (.choice "c1".toList []) fun x11 =>
  acc (.attr .choice x11 .slot) fun a12 =>
  obj (.slot "s1".toList) fun x13 =>
  expr (.relate "==" (.acc a12) (.obj .slot x13)) fun e14 =>
  call (.addExpr e14) <|
  obj (.choice "c2".toList []) fun x15 =>
  acc (.attr .choice x15 .slot) fun a16 =>
  obj (.slot "s1".toList) fun x17 =>
  expr (.relate "==" (.acc a16) (.obj .slot x17)) fun e18 =>
  call (.addExpr e18) <|
  obj (.choice "c3".toList []) fun x19 =>
  acc (.attr .choice x19 .slot) fun a20 =>
  obj (.slot "s2".toList) fun x21 =>
  expr (.relate "==" (.acc a20) (.obj .slot x21)) fun e22 =>
  call (.addExpr e22) <|
  obj (.choice "c4".toList []) fun x23 =>
  acc (.attr .choice x23 .slot) fun a24 =>
  obj (.slot "s2".toList) fun x25 =>
  expr (.relate "==" (.acc a24) (.obj .slot x25)) fun e26 =>
  call (.addExpr e26) <|
  obj (.choice "c4".toList []) fun x27 =>
  acc (.attr .choice x27 .choosers) fun a28 =>
  obj (.chooser "p1".toList ([])) fun x29 =>
  expr (.relate "contains" (.acc a28) (.obj .chooser x29)) fun e30 =>
  call (.addExpr e30) <|
  .done
example : printed (run 2 opts choice_contains_chooser_constraint_changes_the_assignment) = .inr "\"Choice\", \"Slot\"\n\"c1\", \"s1\"\n\"c2\", \"s1\"\n\"c3\", \"s2\"\n\"c4\", \"s2\"\n\n\"Chooser\", \"s1\", \"s2\"\n\"p1\", \"c1\", \"c4\"\n\"p2\", \"c1\", \"c3\"\n\"p3\", \"c2\", \"c4\"\n\"p4\", \"c2\", \"c3\"\n\n" := by decide +kernel
/-! part_indexed_choosers_constraint_changes_the_assignment -/
def part_indexed_choosers_constraint_changes_the_assignment : Script :=
  obj (.slot "s1".toList) fun x1 =>
  call (.add .slot x1) <|
  obj (.slot "s2".toList) fun x2 =>
  call (.add .slot x2) <|
  obj (.choice "c1".toList [(boundsInt 2 2)]) fun x3 =>
  call (.add .choice x3) <|
  obj (.choice "c2".toList [(boundsInt 2 2)]) fun x4 =>
  call (.add .choice x4) <|
  obj (.choice "x".toList [(boundsInt 2 2), (tagInt .parts 2)]) fun x5 =>
  call (.add .choice x5) <|
  obj (.chooser "p1".toList ([.int 100, .int 90, .int 40])) fun x6 =>
  call (.add .chooser x6) <|
  obj (.chooser "p2".toList ([.int 100, .int 90, .int 0])) fun x7 =>
  call (.add .chooser x7) <|
  obj (.chooser "p3".toList ([.int 0, .int 0, .int 100])) fun x8 =>
  call (.add .chooser x8) <|
  obj (.chooser "p4".toList ([.int 60, .int 50, .int 80])) fun x9 =>
  call (.add .chooser x9) <|
  obj (.choice "c1".toList []) fun x10 =>
  acc (.attr .choice x10 .slot) fun a11 =>
  obj (.slot "s2".toList) fun x12 =>
  expr (.relate "==" (.acc a11) (.obj .slot x12)) fun e13 =>
  call (.addExpr e13) <|
  obj (.choice "x".toList []) fun x14 =>
  acc (.attr .choice x14 (.slotPart 1)) fun a15 =>
  obj (.slot "s2".toList) fun x16 =>
  expr (.relate "==" (.acc a15) (.obj .slot x16)) fun e17 =>
  call (.addExpr e17) <|
  obj (.choice "x".toList []) fun x18 =>
  acc (.attr .choice x18 (.choosersPart 1)) fun a19 =>
  obj (.chooser "p1".toList ([])) fun x20 =>
  expr (.relate "contains" (.acc a19) (.obj .chooser x20)) fun e21 =>
  call (.addExpr e21) <|
  .done
example : printed (run 2 opts part_indexed_choosers_constraint_changes_the_assignment) = .inr "\"Choice\", \"Slot\"\n\"c1\", \"s2\"\n\"c2\", \"s1\"\n\"x\", \"s1\"\n\"[2] x\", \"s2\"\n\n\"Chooser\", \"s1\", \"s2\"\n\"p1\", \"x\", \"[2] x\"\n\"p2\", \"c2\", \"c1\"\n\"p3\", \"x\", \"[2] x\"\n\"p4\", \"c2\", \"c1\"\n\n" := by decide +kernel
/-! choice_contains_not_chooser_constraint_changes_the_assignment -/
def choice_contains_not_chooser_constraint_changes_the_assignment : Script :=
  obj (.slot "s1".toList) fun x1 =>
  call (.add .slot x1) <|
  obj (.slot "s2".toList) fun x2 =>
  call (.add .slot x2) <|
  obj (.choice "c1".toList [(boundsInt 2 2)]) fun x3 =>
  call (.add .choice x3) <|
  obj (.choice "c2".toList [(boundsInt 2 2)]) fun x4 =>
  call (.add .choice x4) <|
  obj (.choice "c3".toList [(boundsInt 2 2)]) fun x5 =>
  call (.add .choice x5) <|
  obj (.choice "c4".toList [(boundsInt 2 2)]) fun x6 =>
  call (.add .choice x6) <|
  obj (.chooser "p1".toList ([.int 100, .int 0, .int 100, .int 50])) fun x7 =>
  call (.add .chooser x7) <|
  obj (.chooser "p2".toList ([.int 100, .int 0, .int 100, .int 50])) fun x8 =>
  call (.add .chooser x8) <|
  obj (.chooser "p3".toList ([.int 0, .int 100, .int 50, .int 100])) fun x9 =>
  call (.add .chooser x9) <|
  obj (.chooser "p4".toList ([.int 0, .int 100, .int 70, .int 100])) fun x10 =>
  call (.add .chooser x10) <|
  obj (.choice "c1".toList []) fun x11 =>
  acc (.attr .choice x11 .slot) fun a12 =>
  obj (.slot "s1".toList) fun x13 =>
  expr (.relate "==" (.acc a12) (.obj .slot x13)) fun e14 =>
  call (.addExpr e14) <|
  obj (.choice "c2".toList []) fun x15 =>
  acc (.attr .choice x15 .slot) fun a16 =>
  obj (.slot "s1".toList) fun x17 =>
  expr (.relate "==" (.acc a16) (.obj .slot x17)) fun e18 =>
  call (.addExpr e18) <|
  obj (.choice "c3".toList []) fun x19 =>
  acc (.attr .choice x19 .slot) fun a20 =>
  obj (.slot "s2".toList) fun x21 =>
  expr (.relate "==" (.acc a20) (.obj .slot x21)) fun e22 =>
  call (.addExpr e22) <|
  obj (.choice "c4".toList []) fun x23 =>
  acc (.attr .choice x23 .slot) fun a24 =>
  obj (.slot "s2".toList) fun x25 =>
  expr (.relate "==" (.acc a24) (.obj .slot x25)) fun e26 =>
  call (.addExpr e26) <|
  obj (.choice "c3".toList []) fun x27 =>
  acc (.attr .choice x27 .choosers) fun a28 =>
  obj (.chooser "p1".toList ([])) fun x29 =>
  expr (.relate "contains_not" (.acc a28) (.obj .chooser x29)) fun e30 =>
  call (.addExpr e30) <|
  .done
example : printed (run 2 opts choice_contains_not_chooser_constraint_changes_the_assignment) = .inr "\"Choice\", \"Slot\"\n\"c1\", \"s1\"\n\"c2\", \"s1\"\n\"c3\", \"s2\"\n\"c4\", \"s2\"\n\n\"Chooser\", \"s1\", \"s2\"\n\"p1\", \"c1\", \"c4\"\n\"p2\", \"c1\", \"c3\"\n\"p3\", \"c2\", \"c4\"\n\"p4\", \"c2\", \"c3\"\n\n" := by decide +kernel
/-! chooser_contains_choice_constraint_changes_the_assignment -/
def chooser_contains_choice_constraint_changes_the_assignment : Script :=
  obj (.slot "s1".toList) fun x1 =>
  call (.add .slot x1) <|
  obj (.slot "s2".toList) fun x2 =>
  call (.add .slot x2) <|
  obj (.choice "c1".toList [(boundsInt 2 2)]) fun x3 =>
  call (.add .choice x3) <|
  obj (.choice "c2".toList [(boundsInt 2 2)]) fun x4 =>
  call (.add .choice x4) <|
  obj (.choice "c3".toList [(boundsInt 2 2)]) fun x5 =>
  call (.add .choice x5) <|
  obj (.choice "c4".toList [(boundsInt 2 2)]) fun x6 =>
  call (.add .choice x6) <|
  obj (.chooser "p1".toList ([.int 100, .int 0, .int 100, .int 50])) fun x7 =>
  call (.add .chooser x7) <|
  obj (.chooser "p2".toList ([.int 100, .int 0, .int 100, .int 50])) fun x8 =>
  call (.add .chooser x8) <|
  obj (.chooser "p3".toList ([.int 0, .int 100, .int 50, .int 100])) fun x9 =>
  call (.add .chooser x9) <|
  obj (.chooser "p4".toList ([.int 0, .int 100, .int 70, .int 100])) fun x10 =>
  call (.add .chooser x10) <|
  obj (.choice "c1".toList []) fun x11 =>
  acc (.attr .choice x11 .slot) fun a12 =>
  obj (.slot "s1".toList) fun x13 =>
  expr (.relate "==" (.acc a12) (.obj .slot x13)) fun e14 =>
  call (.addExpr e14) <|
  obj (.choice "c2".toList []) fun x15 =>
  acc (.attr .choice x15 .slot) fun a16 =>
  obj (.slot "s1".toList) fun x17 =>
  expr (.relate "==" (.acc a16) (.obj .slot x17)) fun e18 =>
  call (.addExpr e18) <|
  obj (.choice "c3".toList []) fun x19 =>
  acc (.attr .choice x19 .slot) fun a20 =>
  obj (.slot "s2".toList) fun x21 =>
  expr (.relate "==" (.acc a20) (.obj .slot x21)) fun e22 =>
  call (.addExpr e22) <|
  obj (.choice "c4".toList []) fun x23 =>
  acc (.attr .choice x23 .slot) fun a24 =>
  obj (.slot "s2".toList) fun x25 =>
  expr (.relate "==" (.acc a24) (.obj .slot x25)) fun e26 =>
  call (.addExpr e26) <|
  obj (.chooser "p1".toList ([])) fun x27 =>
  acc (.attr .chooser x27 .choices) fun a28 =>
  obj (.choice "c4".toList []) fun x29 =>
  expr (.relate "contains" (.acc a28) (.obj .choice x29)) fun e30 =>
  call (.addExpr e30) <|
  .done
example : printed (run 2 opts chooser_contains_choice_constraint_changes_the_assignment) = .inr "\"Choice\", \"Slot\"\n\"c1\", \"s1\"\n\"c2\", \"s1\"\n\"c3\", \"s2\"\n\"c4\", \"s2\"\n\n\"Chooser\", \"s1\", \"s2\"\n\"p1\", \"c1\", \"c4\"\n\"p2\", \"c1\", \"c3\"\n\"p3\", \"c2\", \"c4\"\n\"p4\", \"c2\", \"c3\"\n\n" := by decide +kernel
/-! chooser_contains_not_choice_constraint_changes_the_assignment -/
def chooser_contains_not_choice_constraint_changes_the_assignment : Script :=
  obj (.slot "s1".toList) fun x1 =>
  call (.add .slot x1) <|
  obj (.slot "s2".toList) fun x2 =>
  call (.add .slot x2) <|
  obj (.choice "c1".toList [(boundsInt 2 2)]) fun x3 =>
  call (.add .choice x3) <|
  obj (.choice "c2".toList [(boundsInt 2 2)]) fun x4 =>
  call (.add .choice x4) <|
  obj (.choice "c3".toList [(boundsInt 2 2)]) fun x5 =>
  call (.add .choice x5) <|
  obj (.choice "c4".toList [(boundsInt 2 2)]) fun x6 =>
  call (.add .choice x6) <|
  obj (.chooser "p1".toList ([.int 100, .int 0, .int 100, .int 50])) fun x7 =>
  call (.add .chooser x7) <|
  obj (.chooser "p2".toList ([.int 100, .int 0, .int 100, .int 50])) fun x8 =>
  call (.add .chooser x8) <|
  obj (.chooser "p3".toList ([.int 0, .int 100, .int 50, .int 100])) fun x9 =>
  call (.add .chooser x9) <|
  obj (.chooser "p4".toList ([.int 0, .int 100, .int 70, .int 100])) fun x10 =>
  call (.add .chooser x10) <|
  obj (.choice "c1".toList []) fun x11 =>
  acc (.attr .choice x11 .slot) fun a12 =>
  obj (.slot "s1".toList) fun x13 =>
  expr (.relate "==" (.acc a12) (.obj .slot x13)) fun e14 =>
  call (.addExpr e14) <|
  obj (.choice "c2".toList []) fun x15 =>
  acc (.attr .choice x15 .slot) fun a16 =>
  obj (.slot "s1".toList) fun x17 =>
  expr (.relate "==" (.acc a16) (.obj .slot x17)) fun e18 =>
  call (.addExpr e18) <|
  obj (.choice "c3".toList []) fun x19 =>
  acc (.attr .choice x19 .slot) fun a20 =>
  obj (.slot "s2".toList) fun x21 =>
  expr (.relate "==" (.acc a20) (.obj .slot x21)) fun e22 =>
  call (.addExpr e22) <|
  obj (.choice "c4".toList []) fun x23 =>
  acc (.attr .choice x23 .slot) fun a24 =>
  obj (.slot "s2".toList) fun x25 =>
  expr (.relate "==" (.acc a24) (.obj .slot x25)) fun e26 =>
  call (.addExpr e26) <|
  obj (.chooser "p1".toList ([])) fun x27 =>
  acc (.attr .chooser x27 .choices) fun a28 =>
  obj (.choice "c3".toList []) fun x29 =>
  expr (.relate "contains_not" (.acc a28) (.obj .choice x29)) fun e30 =>
  call (.addExpr e30) <|
  .done
example : printed (run 2 opts chooser_contains_not_choice_constraint_changes_the_assignment) = .inr "\"Choice\", \"Slot\"\n\"c1\", \"s1\"\n\"c2\", \"s1\"\n\"c3\", \"s2\"\n\"c4\", \"s2\"\n\n\"Chooser\", \"s1\", \"s2\"\n\"p1\", \"c1\", \"c4\"\n\"p2\", \"c1\", \"c3\"\n\"p3\", \"c2\", \"c4\"\n\"p4\", \"c2\", \"c3\"\n\n" := by decide +kernel
/-! choosers_have_same_choices_constraint_changes_the_assignment -/
def choosers_have_same_choices_constraint_changes_the_assignment : Script :=
  obj (.slot "s1".toList) fun x1 =>
  call (.add .slot x1) <|
  obj (.slot "s2".toList) fun x2 =>
  call (.add .slot x2) <|
  obj (.choice "c1".toList [(boundsInt 2 2)]) fun x3 =>
  call (.add .choice x3) <|
  obj (.choice "c2".toList [(boundsInt 2 2)]) fun x4 =>
  call (.add .choice x4) <|
  obj (.choice "c3".toList [(boundsInt 2 2)]) fun x5 =>
  call (.add .choice x5) <|
  obj (.choice "c4".toList [(boundsInt 2 2)]) fun x6 =>
  call (.add .choice x6) <|
  obj (.chooser "p1".toList ([.int 100, .int 0, .int 100, .int 50])) fun x7 =>
  call (.add .chooser x7) <|
  obj (.chooser "p2".toList ([.int 100, .int 70, .int 100, .int 70])) fun x8 =>
  call (.add .chooser x8) <|
  obj (.chooser "p3".toList ([.int 0, .int 100, .int 50, .int 100])) fun x9 =>
  call (.add .chooser x9) <|
  obj (.chooser "p4".toList ([.int 70, .int 100, .int 70, .int 100])) fun x10 =>
  call (.add .chooser x10) <|
  obj (.choice "c1".toList []) fun x11 =>
  acc (.attr .choice x11 .slot) fun a12 =>
  obj (.slot "s1".toList) fun x13 =>
  expr (.relate "==" (.acc a12) (.obj .slot x13)) fun e14 =>
  call (.addExpr e14) <|
  obj (.choice "c2".toList []) fun x15 =>
  acc (.attr .choice x15 .slot) fun a16 =>
  obj (.slot "s1".toList) fun x17 =>
  expr (.relate "==" (.acc a16) (.obj .slot x17)) fun e18 =>
  call (.addExpr e18) <|
  obj (.choice "c3".toList []) fun x19 =>
  acc (.attr .choice x19 .slot) fun a20 =>
  obj (.slot "s2".toList) fun x21 =>
  expr (.relate "==" (.acc a20) (.obj .slot x21)) fun e22 =>
  call (.addExpr e22) <|
  obj (.choice "c4".toList []) fun x23 =>
  acc (.attr .choice x23 .slot) fun a24 =>
  obj (.slot "s2".toList) fun x25 =>
  expr (.relate "==" (.acc a24) (.obj .slot x25)) fun e26 =>
  call (.addExpr e26) <|
  obj (.chooser "p1".toList ([])) fun x27 =>
  acc (.attr .chooser x27 .choices) fun a28 =>
  obj (.chooser "p4".toList ([])) fun x29 =>
  acc (.attr .chooser x29 .choices) fun a30 =>
  expr (.relate "==" (.acc a28) (.acc a30)) fun e31 =>
  call (.addExpr e31) <|
  .done
example : printed (run 2 opts choosers_have_same_choices_constraint_changes_the_assignment) = .inr "\"Choice\", \"Slot\"\n\"c1\", \"s1\"\n\"c2\", \"s1\"\n\"c3\", \"s2\"\n\"c4\", \"s2\"\n\n\"Chooser\", \"s1\", \"s2\"\n\"p1\", \"c1\", \"c3\"\n\"p2\", \"c2\", \"c4\"\n\"p3\", \"c2\", \"c4\"\n\"p4\", \"c1\", \"c3\"\n\n" := by decide +kernel
/-! unsupported_constraint_shape_is_rejected -/
def unsupported_constraint_shape_is_rejected : Script :=
  obj (.slot "s1".toList) fun x1 =>
  call (.add .slot x1) <|
  obj (.slot "s2".toList) fun x2 =>
  call (.add .slot x2) <|
  obj (.choice "c1".toList [(boundsInt 1 1)]) fun x3 =>
  call (.add .choice x3) <|
  obj (.choice "c2".toList [(boundsInt 1 1)]) fun x4 =>
  call (.add .choice x4) <|
  obj (.chooser "p".toList ([.int 0, .int 0])) fun x5 =>
  call (.add .chooser x5) <|
  obj (.choice "c1".toList []) fun x6 =>
  acc (.attr .choice x6 .slot) fun a7 =>
  obj (.choice "c2".toList []) fun x8 =>
  expr (.relate "contains" (.acc a7) (.obj .choice x8)) fun e9 =>
  call (.addExpr e9) <|
  .done
example : rejects (run 2 opts unsupported_constraint_shape_is_rejected) = true := by decide +kernel
/-! contradictory_constraints_produce_no_solution -/
def contradictory_constraints_produce_no_solution : Script :=
  obj (.slot "s1".toList) fun x1 =>
  call (.add .slot x1) <|
  obj (.slot "s2".toList) fun x2 =>
  call (.add .slot x2) <|
  obj (.choice "c".toList [(boundsInt 1 1)]) fun x3 =>
  call (.add .choice x3) <|
  obj (.chooser "p".toList ([.int 0])) fun x4 =>
  call (.add .chooser x4) <|
  obj (.choice "c".toList []) fun x5 =>
  acc (.attr .choice x5 .slot) fun a6 =>
  obj (.slot "s1".toList) fun x7 =>
  expr (.relate "==" (.acc a6) (.obj .slot x7)) fun e8 =>
  call (.addExpr e8) <|
  obj (.slot "s1".toList) fun x9 =>
  acc (.attr .slot x9 .choices) fun a10 =>
  obj (.choice "c".toList []) fun x11 =>
  expr (.relate "contains_not" (.acc a10) (.obj .choice x11)) fun e12 =>
  call (.addExpr e12) <|
  .done
example : printed (run 2 opts contradictory_constraints_produce_no_solution) = .inr "" := by decide +kernel
/-! ambiguous_names_inside_constraints_are_rejected -/
def ambiguous_names_inside_constraints_are_rejected : Script :=
  obj (.slot "alpha beta".toList) fun x1 =>
  call (.add .slot x1) <|
  obj (.slot "alpha gamma".toList) fun x2 =>
  call (.add .slot x2) <|
  obj (.choice "w1".toList [(boundsInt 1 1)]) fun x3 =>
  call (.add .choice x3) <|
  obj (.chooser "p1".toList ([.int 0])) fun x4 =>
  call (.add .chooser x4) <|
  obj (.choice "w1".toList []) fun x5 =>
  acc (.attr .choice x5 .slot) fun a6 =>
  obj (.slot "alpha".toList) fun x7 =>
  expr (.relate "==" (.acc a6) (.obj .slot x7)) fun e8 =>
  call (.addExpr e8) <|
  .done
example : rejects (run 2 opts ambiguous_names_inside_constraints_are_rejected) = true := by decide +kernel

end Wassign.Conf.Constraints
