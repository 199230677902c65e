import Verif.Proofs.Pareto
import Verif.Proofs.Origin
import Verif.Props.Assignment
import Verif.Props.Climb
/-
C87, C88: nobody can be made happier at nobody's expense, and nothing can be distributed more evenly.
-/
namespace Wassign
open Spec Build Asg

section
variable (pr : AProblem) (env : AEnv) (hp : ProblemOk pr) (hlev : pr.input.prefLevels.Pairwise (· < ·))
  (hb : Backend.Sound env.backend) (free : Bool) (sv : ASolver) (hsv : Reach pr env free sv)
  (s : Scheduling) (hs : SchedShape pr.input s)
include hp hlev hb hsv hs

/-- **C87**, partial (as C07: only schedulings that separate no linked choices): if a worse preference always costs more, no valid
assignment of the same scheduling is better for everybody than the one returned. -/
theorem C87_not_improvable_partial (hc : Increasing pr.cost pr.input.maxPref) (hlinks : LinksScheduled pr.input s)
    (hopt : Backend.Optimal env.backend) (deadline : Bool) (a : Assignment) (sv' : ASolver)
    (h : solveUntil pr env deadline sv s = .ok (some a, sv')) :
    ∀ a', Shape pr.input s a' → AsgValid pr.input s a' → ¬ BetterForAll pr.input a' a := by
  intro a' h1 h2 hbt
  obtain ⟨l, hg, _⟩ := ((reach_solve hp hlev hb hsv hs h).found a rfl).good
  have k1 := hg.least hopt a' h2 (within_of_better h1 hg.within hbt) (alike_of_links hp.groups hlinks h2)
  have k2 := cheaper_of_better hp.wf hc ⟨hs.len, hg.order.rows, hg.order.cols⟩ hg.valid h1 h2 hbt
  omega

/-- **C88**, partial (likewise): if each step to a worse preference costs more than the step before, no valid assignment of the same
scheduling is more even than the one returned. -/
theorem C88_not_more_even_partial (hc : Accelerating pr.cost pr.input.maxPref) (hlinks : LinksScheduled pr.input s)
    (hopt : Backend.Optimal env.backend) (deadline : Bool) (a : Assignment) (sv' : ASolver)
    (h : solveUntil pr env deadline sv s = .ok (some a, sv')) :
    ∀ a', Shape pr.input s a' → AsgValid pr.input s a' → ¬ MoreEven pr.input a' a := by
  intro a' h1 h2 hbt
  obtain ⟨l, hg, _⟩ := ((reach_solve hp hlev hb hsv hs h).found a rfl).good
  have k1 := hg.least hopt a' h2 (within_of_even h1 hg.within hbt) (alike_of_links hp.groups hlinks h2)
  have k2 := cheaper_of_even hp.wf hc ⟨hs.len, hg.order.rows, hg.order.cols⟩ hg.valid h1 h2 hbt
  omega
end

/-! ### What the two comparisons mean -/

/-- **C87**: giving somebody something better in a slot and nobody anything worse in any slot is an improvement in the sense of C87. -/
theorem C87_better_slot_by_slot (i : InputData) (a a' : Assignment)
    (h : ∀ p < i.np, ∀ k < i.ns, value i a' p k ≤ value i a p k) (p k : Nat) (hp : p < i.np) (hk : k < i.ns)
    (hlt : value i a' p k < value i a p k) : BetterForAll i a' a := by
  refine ⟨fun q hq l => ?_, p, hp, value i a' p k, ?_⟩
  · unfold worseThan
    refine List.countP_mono_left fun j hj hlt => ?_
    have := h q hq j (by simpa using hj)
    simp only [decide_eq_true_eq] at *
    omega
  · have h1 := cells_worse (i := i) (a := a') p (value i a' p k)
    have h2 := cells_worse (i := i) (a := a) p (value i a' p k)
    have : isum (List.range i.ns) (fun j => if value i a' p k < value i a' p j then (1 : Int) else 0) <
        isum (List.range i.ns) (fun j => if value i a' p k < value i a p j then 1 else 0) := by
      refine isum_lt (y := k) ?_ (by simpa using hk) ?_
      · intro j hj
        have := h p hp j (by simpa using hj)
        split <;> split <;> omega
      · rw [if_neg (Nat.lt_irrefl _), if_pos hlt]; omega
    omega

/-- **C88**: changing what is given out in two places so that the sum does not grow and the worse of the two gets better makes an
assignment more even. -/
theorem C88_exchange_is_more_even (i : InputData) (a a' : Assignment) (p k q j : Nat) (hp : p < i.np) (hk : k < i.ns) (hq : q < i.np)
    (hj : j < i.ns) (hne : ¬ (p = q ∧ k = j))
    (h : ∀ x < i.np, ∀ y < i.ns, ¬ (x = p ∧ y = k) → ¬ (x = q ∧ y = j) → value i a' x y = value i a x y)
    (hsum : value i a' p k + value i a' q j ≤ value i a p k + value i a q j)
    (hmax : max (value i a' p k) (value i a' q j) < max (value i a p k) (value i a q j)) : MoreEven i a' a :=
  even_of_exchange hp hk hq hj hne h hsum hmax

end Wassign

/-! ### The program -/

namespace Wassign
open Spec Build Threaded Main Reader Hill
variable {F σ : Type}

section
variable (raw : Raw) (tr : List Reader.Event) (hdes : Describes tr raw) (d : InputData) (h : build raw = .ok d)
  (hr : ManageableRaw raw) (hd : Manageable d) (o : Outside F σ) (ho : Trusted o d.nc)
  (opts : Opts F) (hcs : 0 ≤ opts.csTimeout) (p : Prepared) (hp : prepare o d opts = .ok p)
  (g : Session σ ASolver (σ × Nat)) (hg : Run (setup o p opts) (start (setup o p opts)) g)
include hdes h hr hd ho hcs hp hg

/-- Whatever the program prints was answered by the assignment solver of one of its workers. -/
theorem printed_made :
    report p g = .ok .noSolution ∨
    ∃ s a sched asg, SchedShape d s ∧ Shape d s a ∧ Valid d s a ∧ Placed d s ∧ report p g = .ok (.tables sched asg) ∧
      (∃ table, asg = csv table ∧ AssignmentTable d s a table) ∧
      ∃ tid free sv sv', Reach (asgProblem o p opts) (asgEnv o tid) free sv ∧
        Asg.solveUntil (asgProblem o p opts) (asgEnv o tid) true sv s = .ok (some a, sv') := by
  have hmax := fun q hq => ((described_fit hdes).1 q hq).2.1
  obtain ⟨m, written, hb⟩ := build_spec hmax h
  have hcalm := C49_no_worker_panics raw d hmax h hr hd o ho opts hcs p hp g hg
  have hrep := report_ok hdes h ho.lawful hp hg hcalm
  have hpp := hp
  unfold prepare at hpp
  simp only [R.bind_eq_ok] at hpp
  obtain ⟨an, han, S, hS, hpp⟩ := hpp
  obtain ⟨hok, hlev', hlast⟩ := problemOk_of_built raw d hmax h hd.nodes (asgProblem o p opts) (by cases hpp; rfl) (by cases hpp; exact hS)
  have hin : p.input = d := by cases hpp; rfl
  subst hin
  rcases hrep with ⟨e, _⟩ | ⟨s, a, x, sched, hwait, hre, hs, hv, hpl, ht, _⟩
  · exact .inl e
  right
  have hA := fun tid => shaped_solver (env := asgEnv o tid) hok hlev' (ho.backend tid) true
  have hworkers := run_kept (cfg := setup o p opts)
    (P := fun tid st => Recorded (setup o p opts).problem ((setup o p opts).env tid) (Used (asgProblem o p opts) (asgEnv o tid)) st)
    (fun tid => ⟨⟨_, .new⟩, .invalid⟩)
    (fun tid k st st' hc he =>
      iterate_recorded (pr := (setup o p opts).problem) (env := (setup o p opts).env tid) ho.lawful (hA tid) (by
        intro r s r' e
        obtain ⟨e1, e2⟩ := Search.nextScheduling_feasible (source_next e)
        exact ⟨e1, schedFeasible_range e1 e2⟩) 1 k st st' hc he)
    (fun tid st hc => hc) hg
  have hcol : wait g = .ok ((g.workers.map (·.st.best)).foldl keep nothing).1 := by
    unfold Threaded.wait
    rw [collect_ok hcalm]
  rw [hcol] at hwait
  injection hwait with hwait
  have hmem : (g.workers.map (·.st.best)).foldl keep nothing ∈ g.workers.map (·.st.best) := by
    rcases keep_mem (g.workers.map (·.st.best)) nothing with e | e
    · rw [e] at hwait; cases hwait
    · exact e.1
  obtain ⟨w, hw, hwb⟩ := List.mem_map.1 hmem
  rw [← hwb] at hwait
  obtain ⟨tid, htid⟩ := List.mem_iff_getElem?.1 hw
  obtain ⟨_, hfrom⟩ := hworkers tid w htid
  obtain ⟨t, t', ⟨free, hu⟩, hask⟩ := hfrom.made s a hwait
  have hsha : Shape p.input s a := (hA tid).shape _ _ _ _ ⟨free, hu⟩ hs hask
  exact ⟨s, a, sched, x, hs, hsha, hv, hpl, hre, ht, tid, free, t, t', hu, hask⟩

variable (hopt : ∀ tid, Backend.Optimal (o.backend tid))
include hopt

/-- **C07** for the program, partial: what is printed costs least among the valid assignments of its scheduling in which nobody gets
anything worse than the worst that is printed; with `--greedy`, among all valid assignments of the scheduling. -/
theorem C07_printed_cheapest_partial :
    report p g = .ok .noSolution ∨
    ∃ s a sched asg, SchedShape d s ∧ Shape d s a ∧ Valid d s a ∧ Placed d s ∧ report p g = .ok (.tables sched asg) ∧
      (∃ table, asg = csv table ∧ AssignmentTable d s a table) ∧
      (LinksScheduled d s → ∀ a', AsgValid d s a' → (opts.greedy = true ∨ ∃ w, IsWorst d a w ∧ WithinLimit d a' w) →
        totalCost d (o.cost opts.prefExp) a ≤ totalCost d (o.cost opts.prefExp) a') := by
  have hmax := fun q hq => ((described_fit hdes).1 q hq).2.1
  have hpp := hp
  unfold prepare at hpp
  simp only [R.bind_eq_ok] at hpp
  obtain ⟨an, han, S, hS, hpp⟩ := hpp
  obtain ⟨hok, hlev', _⟩ := problemOk_of_built raw d hmax h hd.nodes (asgProblem o p opts) (by cases hpp; rfl) (by cases hpp; exact hS)
  have hin : p.input = d := by cases hpp; rfl
  rcases printed_made raw tr hdes d h hr hd o ho opts hcs p hp g hg with e | ⟨s, a, sched, asg, h1, h2, h3, h4, h5, h6, tid, free, sv, sv', h7, h8⟩
  · exact .inl e
  refine .inr ⟨s, a, sched, asg, h1, h2, h3, h4, h5, h6, ?_⟩
  subst hin
  intro hlinks a' hv' hcase
  obtain ⟨c1, c2⟩ := C07_cheapest_partial (asgProblem o p opts) (asgEnv o tid) hok hlev' (ho.backend tid) free sv h7 s h1 hlinks (hopt tid) true a sv' h8
  rcases hcase with e | ⟨w, e1, e2⟩
  · exact c1 e a' hv'
  · exact c2 a' w hv' e1 e2

/-- **C87** for the program, partial: if a worse preference always costs more, no valid assignment of the printed scheduling is better
for everybody than the one printed. -/
theorem C87_printed_not_improvable_partial (hc : Increasing (o.cost opts.prefExp) d.maxPref) :
    report p g = .ok .noSolution ∨
    ∃ s a sched asg, SchedShape d s ∧ Shape d s a ∧ Valid d s a ∧ Placed d s ∧ report p g = .ok (.tables sched asg) ∧
      (∃ table, asg = csv table ∧ AssignmentTable d s a table) ∧
      (LinksScheduled d s → ∀ a', Shape d s a' → Valid d s a' → ¬ BetterForAll d a' a) := by
  have hmax := fun q hq => ((described_fit hdes).1 q hq).2.1
  have hpp := hp
  unfold prepare at hpp
  simp only [R.bind_eq_ok] at hpp
  obtain ⟨an, han, S, hS, hpp⟩ := hpp
  obtain ⟨hok, hlev', _⟩ := problemOk_of_built raw d hmax h hd.nodes (asgProblem o p opts) (by cases hpp; rfl) (by cases hpp; exact hS)
  have hin : p.input = d := by cases hpp; rfl
  rcases printed_made raw tr hdes d h hr hd o ho opts hcs p hp g hg with e | ⟨s, a, sched, asg, h1, h2, h3, h4, h5, h6, tid, free, sv, sv', h7, h8⟩
  · exact .inl e
  refine .inr ⟨s, a, sched, asg, h1, h2, h3, h4, h5, h6, ?_⟩
  subst hin
  intro hlinks a' hsh' hv'
  exact C87_not_improvable_partial (asgProblem o p opts) (asgEnv o tid) hok hlev' (ho.backend tid) free sv h7 s h1 hc hlinks (hopt tid) true a sv' h8
    a' hsh' ⟨hv'.onePerSlot, hv'.onlyScheduled, hv'.bounds, hv'.asg⟩

/-- **C88** for the program, partial: if each step to a worse preference costs more than the step before, no valid assignment of the
printed scheduling is more even than the one printed. -/
theorem C88_printed_not_more_even_partial (hc : Accelerating (o.cost opts.prefExp) d.maxPref) :
    report p g = .ok .noSolution ∨
    ∃ s a sched asg, SchedShape d s ∧ Shape d s a ∧ Valid d s a ∧ Placed d s ∧ report p g = .ok (.tables sched asg) ∧
      (∃ table, asg = csv table ∧ AssignmentTable d s a table) ∧
      (LinksScheduled d s → ∀ a', Shape d s a' → Valid d s a' → ¬ MoreEven d a' a) := by
  have hmax := fun q hq => ((described_fit hdes).1 q hq).2.1
  have hpp := hp
  unfold prepare at hpp
  simp only [R.bind_eq_ok] at hpp
  obtain ⟨an, han, S, hS, hpp⟩ := hpp
  obtain ⟨hok, hlev', _⟩ := problemOk_of_built raw d hmax h hd.nodes (asgProblem o p opts) (by cases hpp; rfl) (by cases hpp; exact hS)
  have hin : p.input = d := by cases hpp; rfl
  rcases printed_made raw tr hdes d h hr hd o ho opts hcs p hp g hg with e | ⟨s, a, sched, asg, h1, h2, h3, h4, h5, h6, tid, free, sv, sv', h7, h8⟩
  · exact .inl e
  refine .inr ⟨s, a, sched, asg, h1, h2, h3, h4, h5, h6, ?_⟩
  subst hin
  intro hlinks a' hsh' hv'
  exact C88_not_more_even_partial (asgProblem o p opts) (asgEnv o tid) hok hlev' (ho.backend tid) free sv h7 s h1 hc hlinks (hopt tid) true a sv' h8
    a' hsh' ⟨hv'.onePerSlot, hv'.onlyScheduled, hv'.bounds, hv'.asg⟩
end

end Wassign
