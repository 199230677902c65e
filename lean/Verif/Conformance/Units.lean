import Verif.Conformance.Runner
import Verif.Model.Display
import Verif.Model.Status
/-
The unit tests in the sources of the repository, replayed on the model (rng.rs, whose engine is not modelled, excepted), and the tests of
tests/output_formatter_test.rs, tests/cli_test.rs and tests/shotgun_solver_threaded_test.rs that are about the program.
-/
namespace Wassign.Conf.Units
open Reader Main Threaded Conf

/-! constraint.rs: constraint_type_threshold_classifies_constraints -/
def con (k : Kind) : Constraint := ⟨k, 0, .none, .none⟩
example : Kind.slotHasLimitedSize.toNat < 65536 ∧ 65536 ≤ Kind.choicesHaveSameChoosers.toNat := by decide
example : (con .choiceIsInSlot).isScheduling = true ∧ (con .invalid).isScheduling = false ∧ (con .chooserIsInChoice).isAssignment = true ∧
    (con .invalid).isAssignment = false := by decide

/-! mip_flow_static_data.rs: make_long_packs_two_u32_values -/
example : makeLong 0x12345678 0x9abcdef0 = 0x123456789abcdef0 := by decide

/-! mip_flow_static_data.rs: generated_flow_ids_are_distinct_in_their_own_namespaces -/
example : nodeChooserKey 0 0 ≠ nodeSlotKey 0 ∧ nodeChooserKey 0 0 ≠ nodeChoiceKey 0 ∧ nodeSlotKey 0 ≠ nodeChoiceKey 0 ∧
    edgeId 1 2 = .ok (makeLong 1 2) ∧ edgeId 1 2 ≠ edgeId 2 1 := by decide +kernel

/-! score.rs: scores_format_for_display (2.125 is 17 / 8) -/
def f2125 : F32 := 0x40080000#32
example : String.ofList (Score.display (fun _ => false) ⟨F32.ofU32 4, f2125⟩) = "(4, 2.12500)" := by decide +kernel
example : String.ofList (Score.display (fun _ => false) ⟨F32.nan, f2125⟩) = "2.12500" := by decide +kernel

/-! score.rs: invalid_scores_are_worse_than_greedy_scores, greedy_scores_compare_by_minor_value -/
example : Score.lt ⟨F32.nan, F32.ofU32 2⟩ Score.infinite = true ∧ Score.cmp Score.infinite ⟨F32.nan, F32.ofU32 2⟩ = .gt ∧
    Score.lt ⟨F32.nan, F32.ofU32 2⟩ ⟨F32.nan, F32.ofU32 3⟩ = true := by decide +kernel

/-! threaded_solver.rs: progress_keeps_worker_best_score_monotonic (45, 1.5 and 1.8) -/
def f15 : F32 := 0x3FC00000#32
def f18 : F32 := 0x3FE66666#32
def report1 : Wassign.Event := ⟨0, none, none, none, some .invalid, some ⟨F32.ofU32 45, f15⟩⟩
def report2 : Wassign.Event := ⟨0, none, none, none, some .invalid, some ⟨F32.ofU32 45, f18⟩⟩
example : (poll (freshProgress 1) [report1, report2]).1.bestScore = ⟨F32.ofU32 45, f15⟩ ∧
    (poll (freshProgress 1) [report1, report2]).1.bestSolution = .invalid := by decide +kernel

/-! union_find.rs: union_find_works -/
def joined : R UF := do
  let u ← UF.new 4
  let u ← u.join 0 1
  u.join 1 3
example : (UF.new 4 >>= UF.groups) = .ok [[0], [1], [2], [3]] := by decide +kernel
example : (joined >>= fun u => u.find 0) = (joined >>= fun u => u.find 1) ∧ (joined >>= fun u => u.find 1) = (joined >>= fun u => u.find 3) ∧
    (joined >>= fun u => u.find 1) ≠ (joined >>= fun u => u.find 2) := by decide +kernel
example : (joined >>= UF.groups).toOption.map (fun gs => gs.filter (fun g => g.length == 3)) = some [[0, 1, 3]] := by decide +kernel

/-! util.rs: riffle_shuffle_should_work -/
example : (riffleShuffle Ex.counter 12 (List.range 10) ((List.range 10).map (· + 10))).toOption.map
      (fun r => (r.1.filter (· < 10), r.1.filter (10 ≤ ·))) = some (List.range 10, (List.range 10).map (· + 10)) := by decide +kernel

/-! input/constraint_builder.rs: missing_accessor_name_emits_no_constraint -/
def small : InputData := { (default : InputData) with
  choices := [⟨"choice".toList, 1, 1, none, false⟩]
  choosers := [⟨"chooser".toList, [0]⟩]
  slots := ["slot".toList] }
example : buildExpr small ⟨⟨.choice, .slot, "missing".toList, 0⟩, .eq, ⟨.slot, .notSet, "slot".toList, 0⟩⟩ = .ok [] := by decide +kernel

/-! output_formatter_test.rs -/
example : rejects (Output.writeScheduling small .invalid) = true ∧ rejects (Output.writeAssignment small (.scheduling [some 0])) = true := by decide +kernel

end Wassign.Conf.Units
