import Verif.Conformance.Runner
import Verif.Model.Csv
/-
tests/scheduling_solver_test.rs, tests/assignment_solver_test.rs: the tests of the repository, replayed on the model. Generated by tools/conformance.py.
-/
namespace Wassign.Conf.Solvers
open Reader Main Conf

set_option linter.unusedVariables false

/-- `common_check`. -/
def common (s : Scheduling) : Bool := (s.take 4).countP (· == some 0) == 2

/-- `count_slot_zero`. -/
def zero (s : Scheduling) : Nat := s.countP (· == some 0)

/-! tests/scheduling_solver_test.rs: minimal -/
def sched_minimal : Script :=
  obj (.slot "s".toList) fun x1 =>
  call (.add .slot x1) <|
  obj (.choice "e".toList [(boundsInt 1 1)]) fun x2 =>
  call (.add .choice x2) <|
  obj (.chooser "p".toList ([.int 1])) fun x3 =>
  call (.add .chooser x3) <|
  .done
example : schedulings 1 sched_minimal = [[some 0]] := by decide +kernel
/-! tests/scheduling_solver_test.rs: works_without_constraints -/
def sched_works_without_constraints : Script :=
  obj (.slot "s1".toList) fun x1 =>
  call (.add .slot x1) <|
  obj (.slot "s2".toList) fun x2 =>
  call (.add .slot x2) <|
  obj (.choice "c1".toList [(boundsInt 2 2)]) fun x3 =>
  call (.add .choice x3) <|
  obj (.choice "c2".toList [(boundsInt 2 2)]) fun x4 =>
  call (.add .choice x4) <|
  obj (.choice "c3".toList [(boundsInt 2 2)]) fun x5 =>
  call (.add .choice x5) <|
  obj (.choice "c4".toList [(boundsInt 2 2)]) fun x6 =>
  call (.add .choice x6) <|
  obj (.chooser "p1".toList ([.int 1, .int 1, .int 1, .int 1])) fun x7 =>
  call (.add .chooser x7) <|
  obj (.chooser "p2".toList ([.int 1, .int 1, .int 1, .int 1])) fun x8 =>
  call (.add .chooser x8) <|
  obj (.chooser "p3".toList ([.int 1, .int 1, .int 1, .int 1])) fun x9 =>
  call (.add .chooser x9) <|
  obj (.chooser "p4".toList ([.int 1, .int 1, .int 1, .int 1])) fun x10 =>
  call (.add .chooser x10) <|
  .done
example : allSchedulings 1 sched_works_without_constraints common = true := by decide +kernel
/-! tests/scheduling_solver_test.rs: choice_is_in_slot_constraint_works -/
def sched_choice_is_in_slot_constraint_works : Script :=
  obj (.slot "s1".toList) fun x1 =>
  call (.add .slot x1) <|
  obj (.slot "s2".toList) fun x2 =>
  call (.add .slot x2) <|
  obj (.choice "c1".toList [(boundsInt 2 2)]) fun x3 =>
  call (.add .choice x3) <|
  obj (.choice "c2".toList [(boundsInt 2 2)]) fun x4 =>
  call (.add .choice x4) <|
  obj (.choice "c3".toList [(boundsInt 2 2)]) fun x5 =>
  call (.add .choice x5) <|
  obj (.choice "c4".toList [(boundsInt 2 2)]) fun x6 =>
  call (.add .choice x6) <|
  obj (.chooser "p1".toList ([.int 1, .int 1, .int 1, .int 1])) fun x7 =>
  call (.add .chooser x7) <|
  obj (.chooser "p2".toList ([.int 1, .int 1, .int 1, .int 1])) fun x8 =>
  call (.add .chooser x8) <|
  obj (.chooser "p3".toList ([.int 1, .int 1, .int 1, .int 1])) fun x9 =>
  call (.add .chooser x9) <|
  obj (.chooser "p4".toList ([.int 1, .int 1, .int 1, .int 1])) fun x10 =>
  call (.add .chooser x10) <|
  obj (.choice "c1".toList []) fun x11 =>
  acc (.attr .choice x11 .slot) fun a12 =>
  obj (.slot "s1".toList) fun x13 =>
  expr (.relate "==" (.acc a12) (.obj .slot x13)) fun e14 =>
  call (.addExpr e14) <|
  .done
example : allSchedulings 16 sched_choice_is_in_slot_constraint_works (fun s => s[0]? == some (some 0) && common s) = true := by decide +kernel
/-! tests/scheduling_solver_test.rs: choice_is_not_in_slot_constraint_works -/
def sched_choice_is_not_in_slot_constraint_works : Script :=
  obj (.slot "s1".toList) fun x1 =>
  call (.add .slot x1) <|
  obj (.slot "s2".toList) fun x2 =>
  call (.add .slot x2) <|
  obj (.choice "c1".toList [(boundsInt 2 2)]) fun x3 =>
  call (.add .choice x3) <|
  obj (.choice "c2".toList [(boundsInt 2 2)]) fun x4 =>
  call (.add .choice x4) <|
  obj (.choice "c3".toList [(boundsInt 2 2)]) fun x5 =>
  call (.add .choice x5) <|
  obj (.choice "c4".toList [(boundsInt 2 2)]) fun x6 =>
  call (.add .choice x6) <|
  obj (.chooser "p1".toList ([.int 1, .int 1, .int 1, .int 1])) fun x7 =>
  call (.add .chooser x7) <|
  obj (.chooser "p2".toList ([.int 1, .int 1, .int 1, .int 1])) fun x8 =>
  call (.add .chooser x8) <|
  obj (.chooser "p3".toList ([.int 1, .int 1, .int 1, .int 1])) fun x9 =>
  call (.add .chooser x9) <|
  obj (.chooser "p4".toList ([.int 1, .int 1, .int 1, .int 1])) fun x10 =>
  call (.add .chooser x10) <|
  obj (.choice "c1".toList []) fun x11 =>
  acc (.attr .choice x11 .slot) fun a12 =>
  obj (.slot "s1".toList) fun x13 =>
  expr (.relate "!=" (.acc a12) (.obj .slot x13)) fun e14 =>
  call (.addExpr e14) <|
  .done
example : allSchedulings 16 sched_choice_is_not_in_slot_constraint_works (fun s => s[0]? != some (some 0) && common s) = true := by decide +kernel
/-! tests/scheduling_solver_test.rs: choices_are_in_same_slot_constraint_works -/
def sched_choices_are_in_same_slot_constraint_works : Script :=
  obj (.slot "s1".toList) fun x1 =>
  call (.add .slot x1) <|
  obj (.slot "s2".toList) fun x2 =>
  call (.add .slot x2) <|
  obj (.choice "c1".toList [(boundsInt 2 2)]) fun x3 =>
  call (.add .choice x3) <|
  obj (.choice "c2".toList [(boundsInt 2 2)]) fun x4 =>
  call (.add .choice x4) <|
  obj (.choice "c3".toList [(boundsInt 2 2)]) fun x5 =>
  call (.add .choice x5) <|
  obj (.choice "c4".toList [(boundsInt 2 2)]) fun x6 =>
  call (.add .choice x6) <|
  obj (.chooser "p1".toList ([.int 1, .int 1, .int 1, .int 1])) fun x7 =>
  call (.add .chooser x7) <|
  obj (.chooser "p2".toList ([.int 1, .int 1, .int 1, .int 1])) fun x8 =>
  call (.add .chooser x8) <|
  obj (.chooser "p3".toList ([.int 1, .int 1, .int 1, .int 1])) fun x9 =>
  call (.add .chooser x9) <|
  obj (.chooser "p4".toList ([.int 1, .int 1, .int 1, .int 1])) fun x10 =>
  call (.add .chooser x10) <|
  obj (.choice "c1".toList []) fun x11 =>
  acc (.attr .choice x11 .slot) fun a12 =>
  obj (.choice "c3".toList []) fun x13 =>
  acc (.attr .choice x13 .slot) fun a14 =>
  expr (.relate "==" (.acc a12) (.acc a14)) fun e15 =>
  call (.addExpr e15) <|
  .done
example : allSchedulings 16 sched_choices_are_in_same_slot_constraint_works (fun s => s[0]? == s[2]? && common s) = true := by decide +kernel
/-! tests/scheduling_solver_test.rs: choices_are_not_in_same_slot_constraint_works -/
def sched_choices_are_not_in_same_slot_constraint_works : Script :=
  obj (.slot "s1".toList) fun x1 =>
  call (.add .slot x1) <|
  obj (.slot "s2".toList) fun x2 =>
  call (.add .slot x2) <|
  obj (.choice "c1".toList [(boundsInt 2 2)]) fun x3 =>
  call (.add .choice x3) <|
  obj (.choice "c2".toList [(boundsInt 2 2)]) fun x4 =>
  call (.add .choice x4) <|
  obj (.choice "c3".toList [(boundsInt 2 2)]) fun x5 =>
  call (.add .choice x5) <|
  obj (.choice "c4".toList [(boundsInt 2 2)]) fun x6 =>
  call (.add .choice x6) <|
  obj (.chooser "p1".toList ([.int 1, .int 1, .int 1, .int 1])) fun x7 =>
  call (.add .chooser x7) <|
  obj (.chooser "p2".toList ([.int 1, .int 1, .int 1, .int 1])) fun x8 =>
  call (.add .chooser x8) <|
  obj (.chooser "p3".toList ([.int 1, .int 1, .int 1, .int 1])) fun x9 =>
  call (.add .chooser x9) <|
  obj (.chooser "p4".toList ([.int 1, .int 1, .int 1, .int 1])) fun x10 =>
  call (.add .chooser x10) <|
  obj (.choice "c1".toList []) fun x11 =>
  acc (.attr .choice x11 .slot) fun a12 =>
  obj (.choice "c3".toList []) fun x13 =>
  acc (.attr .choice x13 .slot) fun a14 =>
  expr (.relate "!=" (.acc a12) (.acc a14)) fun e15 =>
  call (.addExpr e15) <|
  .done
example : allSchedulings 16 sched_choices_are_not_in_same_slot_constraint_works (fun s => s[0]? != s[2]? && common s) = true := by decide +kernel
/-! tests/scheduling_solver_test.rs: choices_have_offset_constraint_works -/
def sched_choices_have_offset_constraint_works : Script :=
  obj (.slot "s1".toList) fun x1 =>
  call (.add .slot x1) <|
  obj (.slot "s2".toList) fun x2 =>
  call (.add .slot x2) <|
  obj (.choice "c1".toList [(boundsInt 2 2)]) fun x3 =>
  call (.add .choice x3) <|
  obj (.choice "c2".toList [(boundsInt 2 2)]) fun x4 =>
  call (.add .choice x4) <|
  obj (.choice "c3".toList [(boundsInt 2 2), (tagInt .parts 2)]) fun x5 =>
  call (.add .choice x5) <|
  obj (.chooser "p1".toList ([.int 1, .int 1, .int 1])) fun x6 =>
  call (.add .chooser x6) <|
  obj (.chooser "p2".toList ([.int 1, .int 1, .int 1])) fun x7 =>
  call (.add .chooser x7) <|
  obj (.chooser "p3".toList ([.int 1, .int 1, .int 1])) fun x8 =>
  call (.add .chooser x8) <|
  obj (.chooser "p4".toList ([.int 1, .int 1, .int 1])) fun x9 =>
  call (.add .chooser x9) <|
  .done
example : allSchedulings 16 sched_choices_have_offset_constraint_works (fun s => s[2]? == some (some 0) && s[3]? == some (some 1) && common s) = true := by decide +kernel
/-! tests/scheduling_solver_test.rs: slot_has_limited_size_eq_constraint_works -/
def sched_slot_has_limited_size_eq_constraint_works : Script :=
  obj (.slot "s1".toList) fun x1 =>
  call (.add .slot x1) <|
  obj (.slot "s2".toList) fun x2 =>
  call (.add .slot x2) <|
  obj (.choice "c1".toList [(boundsInt 1 4)]) fun x3 =>
  call (.add .choice x3) <|
  obj (.choice "c2".toList [(boundsInt 1 4)]) fun x4 =>
  call (.add .choice x4) <|
  obj (.choice "c3".toList [(boundsInt 1 4)]) fun x5 =>
  call (.add .choice x5) <|
  obj (.choice "c4".toList [(boundsInt 1 4)]) fun x6 =>
  call (.add .choice x6) <|
  obj (.choice "c5".toList [(boundsInt 1 4)]) fun x7 =>
  call (.add .choice x7) <|
  obj (.chooser "p1".toList ([.int 1, .int 1, .int 1, .int 1, .int 1])) fun x8 =>
  call (.add .chooser x8) <|
  obj (.chooser "p2".toList ([.int 1, .int 1, .int 1, .int 1, .int 1])) fun x9 =>
  call (.add .chooser x9) <|
  obj (.chooser "p3".toList ([.int 1, .int 1, .int 1, .int 1, .int 1])) fun x10 =>
  call (.add .chooser x10) <|
  obj (.chooser "p4".toList ([.int 1, .int 1, .int 1, .int 1, .int 1])) fun x11 =>
  call (.add .chooser x11) <|
  obj (.slot "s1".toList) fun x12 =>
  acc (.attr .slot x12 .size) fun a13 =>
  expr (.relate "==" (.acc a13) (.int 2)) fun e14 =>
  call (.addExpr e14) <|
  .done
example : allSchedulings 16 sched_slot_has_limited_size_eq_constraint_works (fun s => decide (zero s = 2)) = true := by decide +kernel
/-! tests/scheduling_solver_test.rs: slot_has_limited_size_neq_constraint_works -/
def sched_slot_has_limited_size_neq_constraint_works : Script :=
  obj (.slot "s1".toList) fun x1 =>
  call (.add .slot x1) <|
  obj (.slot "s2".toList) fun x2 =>
  call (.add .slot x2) <|
  obj (.choice "c1".toList [(boundsInt 1 4)]) fun x3 =>
  call (.add .choice x3) <|
  obj (.choice "c2".toList [(boundsInt 1 4)]) fun x4 =>
  call (.add .choice x4) <|
  obj (.choice "c3".toList [(boundsInt 1 4)]) fun x5 =>
  call (.add .choice x5) <|
  obj (.choice "c4".toList [(boundsInt 1 4)]) fun x6 =>
  call (.add .choice x6) <|
  obj (.choice "c5".toList [(boundsInt 1 4)]) fun x7 =>
  call (.add .choice x7) <|
  obj (.chooser "p1".toList ([.int 1, .int 1, .int 1, .int 1, .int 1])) fun x8 =>
  call (.add .chooser x8) <|
  obj (.chooser "p2".toList ([.int 1, .int 1, .int 1, .int 1, .int 1])) fun x9 =>
  call (.add .chooser x9) <|
  obj (.chooser "p3".toList ([.int 1, .int 1, .int 1, .int 1, .int 1])) fun x10 =>
  call (.add .chooser x10) <|
  obj (.chooser "p4".toList ([.int 1, .int 1, .int 1, .int 1, .int 1])) fun x11 =>
  call (.add .chooser x11) <|
  obj (.slot "s1".toList) fun x12 =>
  acc (.attr .slot x12 .size) fun a13 =>
  expr (.relate "!=" (.acc a13) (.int 2)) fun e14 =>
  call (.addExpr e14) <|
  .done
example : allSchedulings 16 sched_slot_has_limited_size_neq_constraint_works (fun s => decide (zero s ≠ 2)) = true := by decide +kernel
/-! tests/scheduling_solver_test.rs: slot_has_limited_size_lt_constraint_works -/
def sched_slot_has_limited_size_lt_constraint_works : Script :=
  obj (.slot "s1".toList) fun x1 =>
  call (.add .slot x1) <|
  obj (.slot "s2".toList) fun x2 =>
  call (.add .slot x2) <|
  obj (.choice "c1".toList [(boundsInt 1 4)]) fun x3 =>
  call (.add .choice x3) <|
  obj (.choice "c2".toList [(boundsInt 1 4)]) fun x4 =>
  call (.add .choice x4) <|
  obj (.choice "c3".toList [(boundsInt 1 4)]) fun x5 =>
  call (.add .choice x5) <|
  obj (.choice "c4".toList [(boundsInt 1 4)]) fun x6 =>
  call (.add .choice x6) <|
  obj (.choice "c5".toList [(boundsInt 1 4)]) fun x7 =>
  call (.add .choice x7) <|
  obj (.chooser "p1".toList ([.int 1, .int 1, .int 1, .int 1, .int 1])) fun x8 =>
  call (.add .chooser x8) <|
  obj (.chooser "p2".toList ([.int 1, .int 1, .int 1, .int 1, .int 1])) fun x9 =>
  call (.add .chooser x9) <|
  obj (.chooser "p3".toList ([.int 1, .int 1, .int 1, .int 1, .int 1])) fun x10 =>
  call (.add .chooser x10) <|
  obj (.chooser "p4".toList ([.int 1, .int 1, .int 1, .int 1, .int 1])) fun x11 =>
  call (.add .chooser x11) <|
  obj (.slot "s1".toList) fun x12 =>
  acc (.attr .slot x12 .size) fun a13 =>
  expr (.relate "<" (.acc a13) (.int 3)) fun e14 =>
  call (.addExpr e14) <|
  .done
example : allSchedulings 16 sched_slot_has_limited_size_lt_constraint_works (fun s => decide (zero s < 3)) = true := by decide +kernel
/-! tests/scheduling_solver_test.rs: slot_has_limited_size_leq_constraint_works -/
def sched_slot_has_limited_size_leq_constraint_works : Script :=
  obj (.slot "s1".toList) fun x1 =>
  call (.add .slot x1) <|
  obj (.slot "s2".toList) fun x2 =>
  call (.add .slot x2) <|
  obj (.choice "c1".toList [(boundsInt 1 4)]) fun x3 =>
  call (.add .choice x3) <|
  obj (.choice "c2".toList [(boundsInt 1 4)]) fun x4 =>
  call (.add .choice x4) <|
  obj (.choice "c3".toList [(boundsInt 1 4)]) fun x5 =>
  call (.add .choice x5) <|
  obj (.choice "c4".toList [(boundsInt 1 4)]) fun x6 =>
  call (.add .choice x6) <|
  obj (.choice "c5".toList [(boundsInt 1 4)]) fun x7 =>
  call (.add .choice x7) <|
  obj (.chooser "p1".toList ([.int 1, .int 1, .int 1, .int 1, .int 1])) fun x8 =>
  call (.add .chooser x8) <|
  obj (.chooser "p2".toList ([.int 1, .int 1, .int 1, .int 1, .int 1])) fun x9 =>
  call (.add .chooser x9) <|
  obj (.chooser "p3".toList ([.int 1, .int 1, .int 1, .int 1, .int 1])) fun x10 =>
  call (.add .chooser x10) <|
  obj (.chooser "p4".toList ([.int 1, .int 1, .int 1, .int 1, .int 1])) fun x11 =>
  call (.add .chooser x11) <|
  obj (.slot "s1".toList) fun x12 =>
  acc (.attr .slot x12 .size) fun a13 =>
  expr (.relate "<=" (.acc a13) (.int 2)) fun e14 =>
  call (.addExpr e14) <|
  .done
example : allSchedulings 16 sched_slot_has_limited_size_leq_constraint_works (fun s => decide (zero s ≤ 2)) = true := by decide +kernel
/-! tests/scheduling_solver_test.rs: slot_has_limited_size_gt_constraint_works -/
def sched_slot_has_limited_size_gt_constraint_works : Script :=
  obj (.slot "s1".toList) fun x1 =>
  call (.add .slot x1) <|
  obj (.slot "s2".toList) fun x2 =>
  call (.add .slot x2) <|
  obj (.choice "c1".toList [(boundsInt 1 4)]) fun x3 =>
  call (.add .choice x3) <|
  obj (.choice "c2".toList [(boundsInt 1 4)]) fun x4 =>
  call (.add .choice x4) <|
  obj (.choice "c3".toList [(boundsInt 1 4)]) fun x5 =>
  call (.add .choice x5) <|
  obj (.choice "c4".toList [(boundsInt 1 4)]) fun x6 =>
  call (.add .choice x6) <|
  obj (.choice "c5".toList [(boundsInt 1 4)]) fun x7 =>
  call (.add .choice x7) <|
  obj (.chooser "p1".toList ([.int 1, .int 1, .int 1, .int 1, .int 1])) fun x8 =>
  call (.add .chooser x8) <|
  obj (.chooser "p2".toList ([.int 1, .int 1, .int 1, .int 1, .int 1])) fun x9 =>
  call (.add .chooser x9) <|
  obj (.chooser "p3".toList ([.int 1, .int 1, .int 1, .int 1, .int 1])) fun x10 =>
  call (.add .chooser x10) <|
  obj (.chooser "p4".toList ([.int 1, .int 1, .int 1, .int 1, .int 1])) fun x11 =>
  call (.add .chooser x11) <|
  obj (.slot "s1".toList) fun x12 =>
  acc (.attr .slot x12 .size) fun a13 =>
  expr (.relate ">" (.acc a13) (.int 2)) fun e14 =>
  call (.addExpr e14) <|
  .done
example : allSchedulings 16 sched_slot_has_limited_size_gt_constraint_works (fun s => decide (zero s > 2)) = true := by decide +kernel
/-! tests/scheduling_solver_test.rs: slot_has_limited_size_geq_constraint_works -/
def sched_slot_has_limited_size_geq_constraint_works : Script :=
  obj (.slot "s1".toList) fun x1 =>
  call (.add .slot x1) <|
  obj (.slot "s2".toList) fun x2 =>
  call (.add .slot x2) <|
  obj (.choice "c1".toList [(boundsInt 1 4)]) fun x3 =>
  call (.add .choice x3) <|
  obj (.choice "c2".toList [(boundsInt 1 4)]) fun x4 =>
  call (.add .choice x4) <|
  obj (.choice "c3".toList [(boundsInt 1 4)]) fun x5 =>
  call (.add .choice x5) <|
  obj (.choice "c4".toList [(boundsInt 1 4)]) fun x6 =>
  call (.add .choice x6) <|
  obj (.choice "c5".toList [(boundsInt 1 4)]) fun x7 =>
  call (.add .choice x7) <|
  obj (.chooser "p1".toList ([.int 1, .int 1, .int 1, .int 1, .int 1])) fun x8 =>
  call (.add .chooser x8) <|
  obj (.chooser "p2".toList ([.int 1, .int 1, .int 1, .int 1, .int 1])) fun x9 =>
  call (.add .chooser x9) <|
  obj (.chooser "p3".toList ([.int 1, .int 1, .int 1, .int 1, .int 1])) fun x10 =>
  call (.add .chooser x10) <|
  obj (.chooser "p4".toList ([.int 1, .int 1, .int 1, .int 1, .int 1])) fun x11 =>
  call (.add .chooser x11) <|
  obj (.slot "s1".toList) fun x12 =>
  acc (.attr .slot x12 .size) fun a13 =>
  expr (.relate ">=" (.acc a13) (.int 3)) fun e14 =>
  call (.addExpr e14) <|
  .done
example : allSchedulings 16 sched_slot_has_limited_size_geq_constraint_works (fun s => decide (zero s ≥ 3)) = true := by decide +kernel
/-! tests/assignment_solver_test.rs: minimal -/
def asg_minimal : Script :=
  obj (.slot "s".toList) fun x1 =>
  call (.add .slot x1) <|
  obj (.choice "e".toList [(boundsInt 1 1)]) fun x2 =>
  call (.add .choice x2) <|
  obj (.chooser "p".toList ([.int 1])) fun x3 =>
  call (.add .chooser x3) <|
  .done
example : assigned asg_minimal [some 0] = some [["e"]] := by decide +kernel
/-! tests/assignment_solver_test.rs: works_without_constraints -/
def asg_works_without_constraints : Script :=
  obj (.slot "s1".toList) fun x1 =>
  call (.add .slot x1) <|
  obj (.slot "s2".toList) fun x2 =>
  call (.add .slot x2) <|
  obj (.choice "c1".toList [(boundsInt 2 2)]) fun x3 =>
  call (.add .choice x3) <|
  obj (.choice "c2".toList [(boundsInt 2 2)]) fun x4 =>
  call (.add .choice x4) <|
  obj (.choice "c3".toList [(boundsInt 2 2)]) fun x5 =>
  call (.add .choice x5) <|
  obj (.choice "c4".toList [(boundsInt 2 2)]) fun x6 =>
  call (.add .choice x6) <|
  obj (.chooser "p1".toList ([.int 100, .int 0, .int 100, .int 50])) fun x7 =>
  call (.add .chooser x7) <|
  obj (.chooser "p2".toList ([.int 100, .int 0, .int 100, .int 50])) fun x8 =>
  call (.add .chooser x8) <|
  obj (.chooser "p3".toList ([.int 0, .int 100, .int 50, .int 100])) fun x9 =>
  call (.add .chooser x9) <|
  obj (.chooser "p4".toList ([.int 0, .int 100, .int 70, .int 100])) fun x10 =>
  call (.add .chooser x10) <|
  .done
example : assigned asg_works_without_constraints [some 0, some 0, some 1, some 1] = some [["c1", "c3"], ["c1", "c3"], ["c2", "c4"], ["c2", "c4"]] := by decide +kernel
/-! tests/assignment_solver_test.rs: choices_have_same_choosers_constraint_works -/
def asg_choices_have_same_choosers_constraint_works : Script :=
  obj (.slot "s1".toList) fun x1 =>
  call (.add .slot x1) <|
  obj (.slot "s2".toList) fun x2 =>
  call (.add .slot x2) <|
  obj (.choice "c1".toList [(boundsInt 2 2)]) fun x3 =>
  call (.add .choice x3) <|
  obj (.choice "c2".toList [(boundsInt 2 2)]) fun x4 =>
  call (.add .choice x4) <|
  obj (.choice "c3".toList [(boundsInt 2 2)]) fun x5 =>
  call (.add .choice x5) <|
  obj (.choice "c4".toList [(boundsInt 2 2)]) fun x6 =>
  call (.add .choice x6) <|
  obj (.chooser "p1".toList ([.int 100, .int 0, .int 100, .int 50])) fun x7 =>
  call (.add .chooser x7) <|
  obj (.chooser "p2".toList ([.int 100, .int 0, .int 100, .int 50])) fun x8 =>
  call (.add .chooser x8) <|
  obj (.chooser "p3".toList ([.int 0, .int 100, .int 50, .int 100])) fun x9 =>
  call (.add .chooser x9) <|
  obj (.chooser "p4".toList ([.int 0, .int 100, .int 70, .int 100])) fun x10 =>
  call (.add .chooser x10) <|
  obj (.choice "c1".toList []) fun x11 =>
  acc (.attr .choice x11 .choosers) fun a12 =>
  obj (.choice "c4".toList []) fun x13 =>
  acc (.attr .choice x13 .choosers) fun a14 =>
  expr (.relate "==" (.acc a12) (.acc a14)) fun e15 =>
  call (.addExpr e15) <|
  .done
example : assigned asg_choices_have_same_choosers_constraint_works [some 0, some 0, some 1, some 1] = some [["c1", "c4"], ["c1", "c4"], ["c2", "c3"], ["c2", "c3"]] := by decide +kernel
/-! tests/assignment_solver_test.rs: chooser_is_in_choice_constraint_works -/
def asg_chooser_is_in_choice_constraint_works : Script :=
  obj (.slot "s1".toList) fun x1 =>
  call (.add .slot x1) <|
  obj (.slot "s2".toList) fun x2 =>
  call (.add .slot x2) <|
  obj (.choice "c1".toList [(boundsInt 2 2)]) fun x3 =>
  call (.add .choice x3) <|
  obj (.choice "c2".toList [(boundsInt 2 2)]) fun x4 =>
  call (.add .choice x4) <|
  obj (.choice "c3".toList [(boundsInt 2 2)]) fun x5 =>
  call (.add .choice x5) <|
  obj (.choice "c4".toList [(boundsInt 2 2)]) fun x6 =>
  call (.add .choice x6) <|
  obj (.chooser "p1".toList ([.int 100, .int 0, .int 100, .int 50])) fun x7 =>
  call (.add .chooser x7) <|
  obj (.chooser "p2".toList ([.int 100, .int 0, .int 100, .int 50])) fun x8 =>
  call (.add .chooser x8) <|
  obj (.chooser "p3".toList ([.int 0, .int 100, .int 50, .int 100])) fun x9 =>
  call (.add .chooser x9) <|
  obj (.chooser "p4".toList ([.int 0, .int 100, .int 70, .int 100])) fun x10 =>
  call (.add .chooser x10) <|
  obj (.chooser "p1".toList ([])) fun x11 =>
  acc (.attr .chooser x11 .choices) fun a12 =>
  obj (.choice "c4".toList []) fun x13 =>
  expr (.relate "contains" (.acc a12) (.obj .choice x13)) fun e14 =>
  call (.addExpr e14) <|
  .done
example : assigned asg_chooser_is_in_choice_constraint_works [some 0, some 0, some 1, some 1] = some [["c1", "c4"], ["c1", "c3"], ["c2", "c4"], ["c2", "c3"]] := by decide +kernel
/-! tests/assignment_solver_test.rs: chooser_is_not_in_choice_constraint_works -/
def asg_chooser_is_not_in_choice_constraint_works : Script :=
  obj (.slot "s1".toList) fun x1 =>
  call (.add .slot x1) <|
  obj (.slot "s2".toList) fun x2 =>
  call (.add .slot x2) <|
  obj (.choice "c1".toList [(boundsInt 2 2)]) fun x3 =>
  call (.add .choice x3) <|
  obj (.choice "c2".toList [(boundsInt 2 2)]) fun x4 =>
  call (.add .choice x4) <|
  obj (.choice "c3".toList [(boundsInt 2 2)]) fun x5 =>
  call (.add .choice x5) <|
  obj (.choice "c4".toList [(boundsInt 2 2)]) fun x6 =>
  call (.add .choice x6) <|
  obj (.chooser "p1".toList ([.int 100, .int 0, .int 100, .int 50])) fun x7 =>
  call (.add .chooser x7) <|
  obj (.chooser "p2".toList ([.int 100, .int 0, .int 100, .int 50])) fun x8 =>
  call (.add .chooser x8) <|
  obj (.chooser "p3".toList ([.int 0, .int 100, .int 50, .int 100])) fun x9 =>
  call (.add .chooser x9) <|
  obj (.chooser "p4".toList ([.int 0, .int 100, .int 70, .int 100])) fun x10 =>
  call (.add .chooser x10) <|
  obj (.chooser "p1".toList ([])) fun x11 =>
  acc (.attr .chooser x11 .choices) fun a12 =>
  obj (.choice "c3".toList []) fun x13 =>
  expr (.relate "contains_not" (.acc a12) (.obj .choice x13)) fun e14 =>
  call (.addExpr e14) <|
  .done
example : assigned asg_chooser_is_not_in_choice_constraint_works [some 0, some 0, some 1, some 1] = some [["c1", "c4"], ["c1", "c3"], ["c2", "c4"], ["c2", "c3"]] := by decide +kernel
/-! tests/assignment_solver_test.rs: choosers_have_same_choices_constraint_works -/
def asg_choosers_have_same_choices_constraint_works : Script :=
  obj (.slot "s1".toList) fun x1 =>
  call (.add .slot x1) <|
  obj (.slot "s2".toList) fun x2 =>
  call (.add .slot x2) <|
  obj (.choice "c1".toList [(boundsInt 2 2)]) fun x3 =>
  call (.add .choice x3) <|
  obj (.choice "c2".toList [(boundsInt 2 2)]) fun x4 =>
  call (.add .choice x4) <|
  obj (.choice "c3".toList [(boundsInt 2 2)]) fun x5 =>
  call (.add .choice x5) <|
  obj (.choice "c4".toList [(boundsInt 2 2)]) fun x6 =>
  call (.add .choice x6) <|
  obj (.chooser "p1".toList ([.int 100, .int 0, .int 100, .int 50])) fun x7 =>
  call (.add .chooser x7) <|
  obj (.chooser "p2".toList ([.int 100, .int 70, .int 100, .int 70])) fun x8 =>
  call (.add .chooser x8) <|
  obj (.chooser "p3".toList ([.int 0, .int 100, .int 50, .int 100])) fun x9 =>
  call (.add .chooser x9) <|
  obj (.chooser "p4".toList ([.int 70, .int 100, .int 70, .int 100])) fun x10 =>
  call (.add .chooser x10) <|
  obj (.chooser "p1".toList ([])) fun x11 =>
  acc (.attr .chooser x11 .choices) fun a12 =>
  obj (.chooser "p4".toList ([])) fun x13 =>
  acc (.attr .chooser x13 .choices) fun a14 =>
  expr (.relate "==" (.acc a12) (.acc a14)) fun e15 =>
  call (.addExpr e15) <|
  .done
example : assigned asg_choosers_have_same_choices_constraint_works [some 0, some 0, some 1, some 1] = some [["c1", "c3"], ["c2", "c4"], ["c2", "c4"], ["c1", "c3"]] := by decide +kernel

end Wassign.Conf.Solvers
