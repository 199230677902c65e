import Verif.Instances.Assignment
import Verif.Props.Lp
/-
Concrete cases for C75: the program of the example problem at limit 1, its solutions, and reading an answer.
-/
namespace Wassign.Instances
open Spec Asg Lp Wassign

/-- The example problem with bounded costs. -/
def prob : AProblem := { AsgEx.prob with cost := fun x => ((min x 1000 + 1) ^ 2 : Nat) }

theorem prob_ok : ProblemOk prob := ⟨AsgEx.prob_ok.static, AsgEx.prob_ok.wf, AsgEx.prob_ok.small, AsgEx.prob_ok.groups⟩

theorem costs (x : Nat) : Representable (prob.cost x) := by
  refine ⟨(min x 1000 + 1) ^ 2, 0, by show Int.natAbs (((min x 1000 + 1) ^ 2 : Nat) : Int) = _; simp only [Int.natAbs_natCast]; omega, ?_⟩
  have : min x 1000 + 1 ≤ 1001 := by omega
  exact Nat.lt_of_le_of_lt (Nat.pow_le_pow_left this 2) (by decide)

theorem prepared' : ∃ st, prepare prob ASolver.new Ex.sch = .ok st :=
  C11_update_never_fails prob AsgEx.env prob_ok levels ideal_sound true ASolver.new .new Ex.sch AsgEx.sch_shape (by decide)

theorem built : ∃ st f, prepare prob ASolver.new Ex.sch = .ok st ∧ buildFlow prob st 1 = .ok f := by
  obtain ⟨st, hst⟩ := prepared'
  have hok := (prepare_spec (static_spec prob_ok.static) prob_ok.wf (fun st h => (by cases h)) AsgEx.sch_shape).1 st hst
  obtain ⟨f, hf⟩ := (buildFlow_both (prob_ok.setting AsgEx.sch_shape hok) 1).2 fits
  exact ⟨st, f, hst, hf⟩

/-- The program of the example has solutions; every one of them is a valid assignment, and the solver reads off a valid
one that costs no more than the one of the example. -/
example : ∃ st f P, prepare prob ASolver.new Ex.sch = .ok st ∧ buildFlow prob st 1 = .ok f ∧ f.program = .ok P ∧
    (∃ z, Solves P z ∧ lin P.objective z = totalCost Ex.inp prob.cost Ex.asg) ∧
    ∃ f' a, f.solve (LpEx.ideal 0) (some 5) = .ok (true, f') ∧ decode prob st f' = .ok a ∧ AsgValid Ex.inp Ex.sch a ∧
      totalCost Ex.inp prob.cost a ≤ totalCost Ex.inp prob.cost Ex.asg := by
  obtain ⟨st, f, hst, hf⟩ := built
  obtain ⟨P, hP, _, h2⟩ := C75_program_is_assignment_problem prob AsgEx.env prob_ok levels ideal_sound true ASolver.new .new Ex.sch
    AsgEx.sch_shape st hst 1 f hf costs
  obtain ⟨z, hz, hl⟩ := h2 links Ex.asg asgValid within1
  obtain ⟨r, hr⟩ := C75_solve_never_panics prob AsgEx.env prob_ok levels ideal_sound true ASolver.new .new Ex.sch
    AsgEx.sch_shape st hst 1 f hf (LpEx.ideal 0) (some 5)
  obtain ⟨b, f'⟩ := r
  have hb : b = true := by
    cases b with
    | true => rfl
    | false =>
      exfalso
      unfold MipFlow.solve at hr
      obtain ⟨y, hy⟩ := LpEx.best_exists hz
      rw [hP, R.bind_ok, if_neg (by simp)] at hr
      unfold LpEx.ideal at hr
      rw [dif_pos ⟨y, hy⟩] at hr
      cases hr
  subst hb
  obtain ⟨a, ha, _, hv, _, hle⟩ := C75_success prob AsgEx.env prob_ok levels ideal_sound true ASolver.new .new Ex.sch
    AsgEx.sch_shape st hst 1 f hf costs LpEx.ideal LpEx.ideal_accurate 0 (some 5) f' hr
  exact ⟨st, f, P, hst, hf, hP, ⟨z, hz, hl⟩, f', a, hr, ha, hv, hle links Ex.asg asgValid within1⟩

/-- The program of a small flow: one chooser, two choices that must be chosen together, one edge blocked. -/
example : MipFlow.program {
    nodeMap := []
    edgeMap := []
    supply := [2, 0, -2]
    outgoing := [[0, 1], [2], []]
    incoming := [[], [0], [1, 2]]
    edgesMax := [1, 1, 3]
    edgesCost := [4, 9007199254740993, 0]
    groups := [[0, 1]]
    blocked := [2]
    solution := [] } = .ok {
      vars := [⟨0, 1⟩, ⟨0, 1⟩, ⟨0, 3⟩, ⟨0, 1⟩]
      objective := [(4, 0), (9007199254740992, 1), (0, 2)]
      rows := [⟨[(1, 0), (-1, 3)], 0⟩, ⟨[(1, 1), (-1, 3)], 0⟩, ⟨[(1, 2)], 0⟩, ⟨[(-1, 0), (-1, 1)], -2⟩, ⟨[(1, 0), (-1, 2)], 0⟩,
        ⟨[(1, 1), (1, 2)], 2⟩] } := by decide +kernel

/-- Costs beyond the 64-bit integers are cut off at the greatest integer, which rounds up to a power of two. -/
example : f64OfI64 9223372036854775807 = 9223372036854775808 ∧ f64OfI64 (-5) = -5 ∧ f64OfI64 (2 ^ 60 + 2 ^ 8) = 2 ^ 60 + 2 ^ 8 := by decide +kernel

end Wassign.Instances
