import Verif.Props.Exponent
import Verif.Props.Objective
/-
Concrete cases for C87 and C88.
-/
namespace Wassign
open Spec Build Threaded Main Reader

/-! ### The assignment stage: `WorstEx` with the default exponent -/

/-- On the input `WorstEx` the hypotheses of C87 and C88 are met by every sound, optimal backend. -/
example (env : AEnv) (hb : Backend.Sound env.backend) (ho : Backend.Optimal env.backend) (a : Assignment) (sv' : ASolver)
    (h : Asg.solveUntil (probOf WorstEx.d) env false ASolver.new WorstEx.s = .ok (some a, sv')) :
    ∀ a', Shape WorstEx.d WorstEx.s a' → AsgValid WorstEx.d WorstEx.s a' → ¬ BetterForAll WorstEx.d a' a ∧ ¬ MoreEven WorstEx.d a' a := by
  obtain ⟨hp, hlev, _⟩ := WorstEx.ok
  have hlinks : LinksScheduled WorstEx.d WorstEx.s := links_of_all hp.wf (by
    intro c hc'
    have : c < 2 := by rw [show 2 = WorstEx.d.nc by decide +kernel]; exact hc'
    rcases (by omega : c = 0 ∨ c = 1) with rfl | rfl <;> simp [slotAt, WorstEx.s])
  have hacc : Accelerating (probOf WorstEx.d).cost (probOf WorstEx.d).input.maxPref :=
    C88_cost_accelerates 3 (by norm_num) _ _ fun x _ => cubeCost_exact x
  intro a' h1 h2
  exact ⟨C87_not_improvable_partial (probOf WorstEx.d) env hp hlev hb true ASolver.new .new WorstEx.s WorstEx.shape hacc.1 hlinks ho false a sv' h a' h1 h2,
    C88_not_more_even_partial (probOf WorstEx.d) env hp hlev hb true ASolver.new .new WorstEx.s WorstEx.shape hacc hlinks ho false a sv' h a' h1 h2⟩

/-- The comparisons are not empty: in `EvenEx`, 5 and 5 is more even than 4 and 6, though not better for everybody; and giving p, q
and r their best is better for everybody than 5, 5 and 6. -/
example : MoreEven EvenEx.d EvenEx.even EvenEx.uneven ∧ ¬ BetterForAll EvenEx.d EvenEx.even EvenEx.uneven ∧
    BetterForAll EvenEx.d [[0], [0], [2]] [[1], [0], [0]] := by
  refine ⟨C88_uneven_with_exponent_between.2.2.2.2.1, ?_, ?_⟩
  · intro h
    have h1 := h.1 0 (by decide +kernel) 4
    revert h1
    decide +kernel
  · have hnp : EvenEx.d.np = 3 := by decide +kernel
    have hns : EvenEx.d.ns = 1 := by decide +kernel
    refine C87_better_slot_by_slot _ _ _ ?_ 0 0 (by omega) (by omega) (by decide +kernel)
    rw [hnp, hns]
    decide +kernel

/-- With an exponent below 1 the cost does not tell a perfect choice from the next best; with 1, 2 and 3 it does. -/
example : exactCost (1 / 2) 0 = 1 ∧ exactCost (1 / 2) 1 = 1 ∧ Increasing (exactCost 1) 100 ∧ Accelerating (exactCost 2) 100 ∧
    Accelerating (exactCost 3) 100 ∧ exactCost 3 6 = 343 := by
  refine ⟨(C87_small_exponents_do_not_tell _ (by norm_num) (by norm_num)).1, (C87_small_exponents_do_not_tell _ (by norm_num) (by norm_num)).2,
    C87_cost_increases 1 le_rfl _ _ fun _ _ => rfl, C88_cost_accelerates 2 le_rfl _ _ fun _ _ => rfl,
    C88_cost_accelerates 3 (by norm_num) _ _ fun _ _ => rfl, ?_⟩
  rw [← cubeCost_exact]
  decide

/-! ### The program: the input of `ObjectiveEx` with the default exponent -/

open ObjectiveEx in
/-- A session of the program in which something is printed that is neither improvable nor can be made more even. -/
example : ∃ g, Run (setup ideal prepared eff) (start (setup ideal prepared eff)) g ∧
    ∃ s a sched asg, Shape data s a ∧ Valid data s a ∧ report prepared g = .ok (.tables sched asg) ∧
      ∀ a', Shape data s a' → Valid data s a' → ¬ BetterForAll data a' a ∧ ¬ MoreEven data a' a := by
  have hin : prepared.input.ns = 1 := by decide +kernel
  obtain ⟨g, hg, ho⟩ := C59_session_ends (setup ideal prepared eff) hin
  have hrun : Run (setup ideal prepared eff) (start (setup ideal prepared eff)) g := Undisturbed.toRun hg
  refine ⟨g, hrun, ?_⟩
  obtain ⟨_, _, _, _, hre, _⟩ : ∃ s a asg table, report prepared g = .ok (.tables none asg) ∧ asg = csv table ∧ AssignmentTable data s a table ∧ Valid data s a := by
    have h1 : data.slots.length = 1 := by decide +kernel
    have hscor := C60_every_solution_scored_partial raw _ describes_raw data build_raw manageable.1 manageable.2 ideal eff prepared prepare_ok moderate
    rcases C59_optimal_partial raw _ describes_raw data build_raw manageable.1 manageable.2 ideal trusted ideal_exact eff
      (by decide +kernel) prepared prepare_ok (fun _ => rfl) (fun _ _ _ => rfl) (fun _ => rfl)
      hscor g hg ho h1 (by decide +kernel) (by decide +kernel) with ⟨_, h⟩ | ⟨s, a, x, hs, hsh, hv, hpl, hre, ⟨table, ht1, ht2⟩, _, _⟩
    · exact absurd ⟨sch, better, sch_shape, better_valid, placed⟩ h
    · exact ⟨s, a, _, table, hre, ht1, ht2, hv⟩
  rcases C88_printed_fair_if_nothing_optional raw _ describes_raw data build_raw manageable.1 manageable.2 ideal trusted eff (by decide +kernel)
    prepared prepare_ok g hrun (fun _ => ideal_optimal) (by decide +kernel) 3 (fun x _ => cubeCost_exact x) (by norm_num) with e | ⟨s, a, sched, asg, h1, h2, h3, h4, h5, h6, h7⟩
  · rw [hre] at e; cases e
  · exact ⟨s, a, sched, asg, h2, h3, h5, fun a' k1 k2 => ⟨(h7 a' k1 k2).1, (h7 a' k1 k2).2 (by norm_num)⟩⟩

end Wassign
