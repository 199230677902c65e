import Verif.Proofs.Lp
import Verif.Props.Assignment
import Verif.Props.Single
/-
C75: the integer program that is handed to the MIP solver is the assignment problem, and its answer is read exactly.
-/
namespace Wassign
open Spec Lp Asg

/-! ## The program -/

section
variable (pr : AProblem) (env : AEnv) (hp : ProblemOk pr) (hlev : pr.input.prefLevels.Pairwise (· < ·))
  (hb : Backend.Sound env.backend) (free : Bool) (sv : ASolver) (hsv : Reach pr env free sv)
  (s : Scheduling) (hs : SchedShape pr.input s) (st : ScheduleState) (hst : prepare pr sv s = .ok st) (limit : Nat) (f : MipFlow)
  (hf : buildFlow pr st limit = .ok f)
include hp hlev hb hsv hs hst hf

/-- **C75**: the program can be built for every flow problem of the solver (no index is out of range). Every solution of
the program stands for a valid assignment in which nobody gets a choice worse than the limit, at the same cost. Every such
assignment is represented by a solution of the same cost (if no two scheduled choices are tied together through an
unscheduled one only, see C07). -/
theorem C75_program_is_assignment_problem (hcost : ∀ x, Representable (pr.cost x)) :
    ∃ P, f.program = .ok P ∧
      (∀ z, Solves P z → ∃ a, InOrder pr.input s a ∧ AsgValid pr.input s a ∧ WithinLimit pr.input a limit ∧
        lin P.objective z = totalCost pr.input pr.cost a) ∧
      (LinksScheduled pr.input s → ∀ a, AsgValid pr.input s a → WithinLimit pr.input a limit →
        ∃ z, Solves P z ∧ lin P.objective z = totalCost pr.input pr.cost a) := by
  have hok := (prepare_spec (static_spec hp.static) hp.wf (reach_inv hp hlev hb hsv).1 hs).1 st hst
  have hset := hp.setting hs hok
  have hd := (buildFlow_both hset limit).1 f hf
  have hi : Indexed ExactCost f := indexed_buildFlow (indexed_base (static_spec hp.static).base) (by unfold ExactCost; decide)
    (fun x => exactCost_of (hcost x)) hf
  refine ⟨flowProgram f, program_eq hi, ?_, ?_⟩
  · intro z hz
    obtain ⟨a, _, h2, h3, h4, _, h6⟩ := decode_valid hset hp.groups hd (solves_flowOk hi hz)
    exact ⟨a, h2, h3, h4, by rw [objective_eq hi]; exact h6⟩
  · intro hlinks a hv hl
    obtain ⟨h1, h2⟩ := encode_flowOk hset hd hv hl (alike_of_links hp.groups hlinks hv) hp.groups
    obtain ⟨sw, hsw⟩ := flowOk_solves hi h1
    refine ⟨_, hsw, ?_⟩
    rw [objective_eq hi, ← h1.len, List.take_left]
    exact h2

/-- **C75**: solving never panics, whatever the MIP solver answers. If it reports success, the assignment read off is valid,
within the limit, and cheapest (with the exception of C07) — for a solver that is accurate up to rounding, with or without a
time limit. -/
theorem C75_success (hcost : ∀ x, Representable (pr.cost x)) (solver : MipSolver) (hacc : solver.Accurate) (n : Nat)
    (time : Option Nat) (f' : MipFlow) (h : f.solve (solver n) time = .ok (true, f')) :
    ∃ a, decode pr st f' = .ok a ∧ InOrder pr.input s a ∧ AsgValid pr.input s a ∧ WithinLimit pr.input a limit ∧
      (LinksScheduled pr.input s → ∀ a', AsgValid pr.input s a' → WithinLimit pr.input a' limit →
        totalCost pr.input pr.cost a ≤ totalCost pr.input pr.cost a') := by
  have hok := (prepare_spec (static_spec hp.static) hp.wf (reach_inv hp hlev hb hsv).1 hs).1 st hst
  have hset := hp.setting hs hok
  have hd := (buildFlow_both hset limit).1 f hf
  have hi : Indexed ExactCost f := indexed_buildFlow (indexed_base (static_spec hp.static).base) (by unfold ExactCost; decide)
    (fun x => exactCost_of (hcost x)) hf
  by_cases hs' : time = some 0 ∨ ∀ values, solver n (flowProgram f) time ≠ .found true values
  · rw [solve_not_found hi hs'] at h
    cases h
  · rw [not_or] at hs'
    obtain ⟨h1, h2⟩ := hs'
    obtain ⟨values, hv⟩ := Classical.not_forall.1 h2
    have hv := Classical.not_not.1 hv
    obtain ⟨z, hbest, hn⟩ := hacc _ _ _ _ hv
    rw [solve_found hi h1 hv hbest.1 hn] at h
    cases h
    obtain ⟨a, e1, e2, e3, e4, _, e6⟩ := decode_valid hset hp.groups hd (solves_flowOk hi hbest.1)
    refine ⟨a, e1, e2, e3, e4, ?_⟩
    intro hlinks a' hv' hl'
    obtain ⟨g1, g2⟩ := encode_flowOk hset hd hv' hl' (alike_of_links hp.groups hlinks hv') hp.groups
    obtain ⟨sw, hsw⟩ := flowOk_solves hi g1
    have := hbest.2 _ hsw
    rw [objective_eq hi, objective_eq hi, ← g1.len, List.take_left, g1.len] at this
    rw [← e6, ← g2]
    exact this

/-- **C75**: and if it reports failure without having been limited in time, there is no valid assignment within the limit
(with the exception of C08) — for a solver that decides every program. -/
theorem C75_failure (solver : MipSolver) (hacc : solver.Accurate) (hdec : solver.Decides) (n : Nat)
    (f' : MipFlow) (h : f.solve (solver n) none = .ok (false, f')) (hlinks : LinksScheduled pr.input s) :
    ¬ ∃ a, AsgValid pr.input s a ∧ WithinLimit pr.input a limit := by
  have hok := (prepare_spec (static_spec hp.static) hp.wf (reach_inv hp hlev hb hsv).1 hs).1 st hst
  have hset := hp.setting hs hok
  have hd := (buildFlow_both hset limit).1 f hf
  have hi : Indexed (fun _ => True) f := indexed_buildFlow (indexed_base (static_spec hp.static).base) trivial (fun _ => trivial) hf
  rintro ⟨a, hv, hl⟩
  obtain ⟨h1, _⟩ := encode_flowOk hset hd hv hl (alike_of_links hp.groups hlinks hv) hp.groups
  obtain ⟨sw, hsw⟩ := flowOk_solves hi h1
  refine hdec n _ ?_ _ hsw
  intro values hval
  obtain ⟨z, hbest, hn⟩ := hacc _ _ _ _ hval
  rw [solve_found hi (by simp) hval hbest.1 hn] at h
  cases h

/-- **C75**: solving never panics, whatever the MIP solver is. -/
theorem C75_solve_never_panics (solver : Program → Option Nat → Answer) (time : Option Nat) :
    ∃ r, f.solve solver time = .ok r := by
  have hok := (prepare_spec (static_spec hp.static) hp.wf (reach_inv hp hlev hb hsv).1 hs).1 st hst
  have hset := hp.setting hs hok
  have hi : Indexed (fun _ => True) f := indexed_buildFlow (indexed_base (static_spec hp.static).base) trivial (fun _ => trivial) hf
  unfold MipFlow.solve
  rw [program_eq hi, R.bind_ok]
  split
  · exact ⟨_, rfl⟩
  · split <;> exact ⟨_, rfl⟩

end

/-! ## The whole program -/

section
open Main Reader
variable {F σ : Type}

theorem setup_mended {P : Int → Prop} (h0 : P 0) {o : Outside F σ} {d : InputData} {opts : Opts F} {p : Prepared}
    (hp : Main.prepare o d opts = .ok p) (hc : ∀ x, P (o.cost opts.prefExp x)) :
    setup { o with backend := fun tid => mended P (o.backend tid) } p opts = setup o p opts := by
  unfold Main.prepare at hp
  simp only [R.bind_eq_ok] at hp
  obtain ⟨an, _, st, hst, hp⟩ := hp
  have hi : Indexed P p.static.baseFlow := by
    cases hp
    exact indexed_base (static_spec hst).base
  have key : ∀ tid, Asg.solveUntil (asgProblem o p opts) (asgEnv { o with backend := fun tid => mended P (o.backend tid) } tid) =
      Asg.solveUntil (asgProblem o p opts) (asgEnv o tid) := by
    intro tid
    exact solveUntil_mended (pr := asgProblem o p opts) hi h0 hc (asgEnv o tid)
  unfold setup
  congr 1
  funext tid
  have := key tid
  simp only [asgProblem] at this ⊢
  rw [this]

theorem tryRun_mended {P : Int → Prop} (h0 : P 0) {o : Outside F σ} {opts : Opts F} {script : Script}
    (hc : ∀ x, P (o.cost (effectiveOptions (readInput o.opt (new opts) script).2).prefExp x)) (r : R Output) :
    TryRun { o with backend := fun tid => mended P (o.backend tid) } opts script r ↔ TryRun o opts script r := by
  constructor
  · intro h
    cases h with
    | rejected h => exact .rejected h
    | unprepared h1 h2 => exact .unprepared h1 h2
    | @solved d p g h1 h2 h3 h4 =>
      have h2' : Main.prepare o d (effectiveOptions (readInput o.opt (new opts) script).2) = .ok p := h2
      have e := setup_mended h0 h2' hc
      exact .solved h1 h2' (by rw [← e]; exact h3) h4
  · intro h
    cases h with
    | rejected h => exact .rejected h
    | unprepared h1 h2 => exact .unprepared h1 h2
    | @solved d p g h1 h2 h3 h4 =>
      have e := setup_mended h0 h2 hc
      exact .solved h1 h2 (by rw [← e] at h3; exact h3) h4

/-- **C75**: a program whose workers use MIP solvers that are accurate up to rounding, through the integer programs of the
code, behaves like one with backends that are sound and optimal for the flow problems themselves, as the other theorems
assume: the possible results are the same. If the solvers also decide every program (in time), the backends do so. -/
theorem C75_same_results (o : Outside F σ) (solver : Nat → MipSolver) (left : Nat → Nat → Nat)
    (hback : ∀ tid, o.backend tid = lpBackend (solver tid) (left tid)) (hacc : ∀ tid, (solver tid).Accurate)
    (opts : Opts F) (script : Script)
    (hcost : ∀ x, Representable (o.cost (effectiveOptions (readInput o.opt (new opts) script).2).prefExp x)) :
    ∃ b : Nat → Backend, (∀ tid, Backend.Sound (b tid) ∧ Backend.Optimal (b tid)) ∧
      ((∀ tid, (solver tid).Decides) → ∀ tid, Backend.Complete (b tid)) ∧
      ((∀ tid, (solver tid).Quick) → (∀ tid n, left tid n ≠ 0) → ∀ tid, Exact (b tid)) ∧
      ∀ r, TryRun { o with backend := b } opts script r ↔ TryRun o opts script r := by
  refine ⟨fun tid => mended ExactCost (o.backend tid), ?_, ?_, ?_, ?_⟩
  · intro tid
    simp only
    rw [hback tid]
    exact ⟨mended_sound (hacc tid), mended_optimal (hacc tid)⟩
  · intro hd tid
    simp only
    rw [hback tid]
    exact mended_complete (hacc tid) (hd tid)
  · intro hq hl tid
    simp only
    rw [hback tid]
    exact ⟨mended_sound (hacc tid), mended_optimal (hacc tid), mended_timely (hacc tid) (hq tid) (hl tid)⟩
  · exact tryRun_mended (by unfold ExactCost; decide) (fun x => exactCost_of (hcost x))

/-- **C75** with C49: for a manageable input the program with such solvers never panics, whatever the costs are. -/
theorem C75_program_never_panics (o : Outside F σ) (solver : Nat → MipSolver) (left : Nat → Nat → Nat)
    (hback : ∀ tid, o.backend tid = lpBackend (solver tid) (left tid)) (hacc : ∀ tid, (solver tid).Accurate)
    (hov : o.opt.overflow = .wraps) (opts : Opts F) (script : Script)
    (hh : Honest [] script) (hm : AllManageable (outcome o.opt opts script).1) (hlaw : o.rng.Lawful)
    (hvar : ∀ d, (readInput o.opt (new opts) script).1 = .ok d → o.rng.Varied o.draws d.nc)
    (hcs : 0 ≤ (effectiveOptions (readInput o.opt (new opts) script).2).csTimeout)
    (f : Fault) (h : TryRun o opts script (.error f)) :
    (∃ msg, f = .error msg) ∧ (readInput o.opt (new opts) script).1 = .error f := by
  have h' := (tryRun_mended (P := fun _ => True) trivial (o := o) (opts := opts) (script := script) (fun _ => trivial) _).2 h
  exact C49_program_never_panics { o with backend := fun tid => mended (fun _ => True) (o.backend tid) } hov opts script hh hm
    (fun d hd => ⟨hlaw, hvar d hd, fun tid => by
      simp only
      rw [hback tid]
      exact mended_sound (hacc tid)⟩) hcs f h'

end

/-! ## There are such solvers -/

namespace LpEx

theorem lin_bounded (p : Program) : ∃ B : Int, ∀ z, Solves p z → B ≤ lin p.objective z := by
  have key : ∀ l : List (Int × Nat), ∃ B : Int, ∀ z, Solves p z → B ≤ lin l z := by
    intro l
    induction l with
    | nil => exact ⟨0, fun z _ => by simp [lin]⟩
    | cons t l ih =>
      obtain ⟨B, hB⟩ := ih
      have hv : ∃ C : Int, ∀ z, Solves p z → |val z t.2| ≤ C := by
        cases hk : p.vars[t.2]? with
        | none =>
          refine ⟨0, fun z hz => ?_⟩
          have : z[t.2]? = none := by
            rw [List.getElem?_eq_none_iff, hz.len]
            exact List.getElem?_eq_none_iff.1 hk
          simp [val, this]
        | some v =>
          refine ⟨max |v.lo| |v.hi|, fun z hz => ?_⟩
          obtain ⟨h1, h2⟩ := hz.bounds _ _ hk
          exact abs_le_max_abs_abs h1 h2
      obtain ⟨C, hC⟩ := hv
      refine ⟨-(|t.1| * C) + B, fun z hz => ?_⟩
      have h1 := hB z hz
      have h2 : |t.1 * val z t.2| ≤ |t.1| * C := by
        rw [abs_mul]
        exact mul_le_mul_of_nonneg_left (hC z hz) (abs_nonneg _)
      have h3 := neg_abs_le (t.1 * val z t.2)
      show _ ≤ ((t :: l).map fun t => t.1 * val z t.2).sum
      rw [List.map_cons, List.sum_cons]
      change _ ≤ t.1 * val z t.2 + lin l z
      omega
  exact key _

theorem best_exists {p : Program} {y : List Int} (hy : Solves p y) : ∃ z, Best p z := by
  obtain ⟨B, hB⟩ := lin_bounded p
  obtain ⟨v, ⟨x, hx, rfl⟩, hz⟩ := Int.exists_least_of_bdd (P := fun v => ∃ x, Solves p x ∧ lin p.objective x = v)
    ⟨B, by rintro v ⟨x, hx, rfl⟩; exact hB x hx⟩ ⟨_, y, hy, rfl⟩
  exact ⟨x, hx, fun y hy => hz _ ⟨y, hy, rfl⟩⟩

open Classical in
/-- A solver that reports a best solution, a quarter too high in every variable, if there is one. -/
noncomputable def ideal : MipSolver := fun _ p _ =>
  if h : ∃ z, Best p z then .found true (h.choose.map (fun v : Int => (v : Rat) + 1 / 4)) else .failed

theorem ideal_accurate : ideal.Accurate := by
  intro n p limit values h
  unfold ideal at h
  split at h
  · rename_i h'
    cases h
    refine ⟨h'.choose, h'.choose_spec, ?_⟩
    intro k hk
    simp only [val, List.getElem?_map, List.getElem?_eq_getElem hk, Option.map_some, Option.getD_some]
    constructor <;> linarith
  · cases h

theorem ideal_quick : ideal.Quick := by
  intro n p limit h z hz
  obtain ⟨y, hy⟩ := best_exists hz
  exact h _ (by unfold ideal; rw [dif_pos ⟨y, hy⟩])

theorem ideal_decides : ideal.Decides := fun n p h => ideal_quick n p none h

/-- The surroundings of the example program, with this solver and costs that are squares. -/
noncomputable def outside : Main.Outside Unit Nat :=
  { MainEx.outside with
    backend := fun _ => lpBackend ideal (fun _ => 1000000)
    cost := fun _ x => (x + 1) ^ 2 }

/-- Its script, these surroundings and the options meet all the hypotheses of C75: the program does not fail. -/
example (f : Fault) : ¬ Main.TryRun outside ReadEx.opts MainEx.script (.error f) := by
  intro h
  have hr : (Reader.readInput outside.opt (Reader.new ReadEx.opts) MainEx.script).1 = .ok MainEx.data := MainEx.read_ok
  obtain ⟨_, h2⟩ := C75_program_never_panics outside (fun _ => ideal) (fun _ _ => 1000000) (fun _ => rfl) (fun _ => ideal_accurate)
    rfl ReadEx.opts MainEx.script MainEx.honest MainEx.manageable Ex.counter_lawful
    (fun d hd => by
      rw [hr] at hd
      cases hd
      have : MainEx.data.nc = 2 := by decide +kernel
      rw [this]
      exact MainEx.counter_varied)
    (by
      have : 0 ≤ (Reader.effectiveOptions MainEx.read.2).csTimeout := by decide +kernel
      exact this) f h
  rw [hr] at h2
  cases h2

end LpEx
end Wassign
