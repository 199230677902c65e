import Verif.Instances.Search
import Verif.Props.AssignmentSearch
import Verif.Props.AssignmentState
import Verif.Props.AssignmentLimits
/-
Concrete cases that meet the hypotheses of the theorems in Props/Assignment, Props/AssignmentSearch and Props/AssignmentState:
the problem `AsgEx.prob` made from the data of Examples.lean, with the ideal backend.
-/
namespace Wassign.Instances
open Spec Asg Wassign

theorem levels : AsgEx.prob.input.prefLevels.Pairwise (· < ·) := by decide

theorem asgValid : AsgValid Ex.inp Ex.sch Ex.asg := ⟨valid.onePerSlot, valid.onlyScheduled, valid.bounds, valid.asg⟩

theorem links : LinksScheduled Ex.inp Ex.sch := by
  intro a b _ _ h
  refine h.mono ?_
  rintro x y ⟨c, hc, hk, _⟩
  simp only [Ex.inp, List.mem_cons, List.not_mem_nil, or_false] at hc
  rcases hc with rfl | rfl <;> cases hk

theorem fits : FlowFits Ex.inp Ex.sch := by
  constructor
  · decide +kernel
  · decide
  · decide +kernel
  · decide +kernel

theorem within1 : WithinLimit Ex.inp Ex.asg 1 := by
  intro p c x hat hx
  rw [← attendsB_iff] at hat
  match p with
  | 0 =>
    have : c = 0 ∨ c = 2 := by simpa [attendsB, Ex.asg] using hat
    rcases this with rfl | rfl <;> (simp [pref, Ex.inp] at hx; omega)
  | 1 =>
    have : c = 0 ∨ c = 1 := by simpa [attendsB, Ex.asg] using hat
    rcases this with rfl | rfl <;> (simp [pref, Ex.inp] at hx; omega)
  | 2 =>
    have : c = 0 ∨ c = 2 := by simpa [attendsB, Ex.asg] using hat
    rcases this with rfl | rfl <;> (simp [pref, Ex.inp] at hx; omega)
  | p + 3 => simp [attendsB, Ex.asg] at hat

/-- C11: the state of a new solver for the scheduling of the example. -/
theorem prepared : ∃ st, prepare AsgEx.prob ASolver.new Ex.sch = .ok st :=
  C11_update_never_fails AsgEx.prob AsgEx.env AsgEx.prob_ok levels ideal_sound true ASolver.new .new Ex.sch AsgEx.sch_shape (by decide)

theorem attempt (st : ScheduleState) (hst : prepare AsgEx.prob ASolver.new Ex.sch = .ok st) (limit : Nat) :
    ∃ r sv', solveWithLimit AsgEx.prob AsgEx.env false st limit ASolver.new = .ok (r, sv') :=
  solveWithLimit_total AsgEx.prob_ok AsgEx.sch_shape
    ((prepare_spec (static_spec AsgEx.prob_ok.static) AsgEx.prob_ok.wf (fun st h => (by cases h)) AsgEx.sch_shape).1 st hst)
    ideal_sound fits false ASolver.new

/-- C06, C07, C08 for a fixed limit: with limit 1 there is a solution, it is valid and the cheapest. With limit 0 there is none, since
chooser 0 has to be in choice 2. -/
theorem atLimit1 : ∃ st a sv2, prepare AsgEx.prob ASolver.new Ex.sch = .ok st ∧
    solveWithLimit AsgEx.prob AsgEx.env false st 1 ASolver.new = .ok (.feasible a, sv2) ∧
    AsgValid Ex.inp Ex.sch a ∧ WithinLimit Ex.inp a 1 ∧ totalCost Ex.inp AsgEx.prob.cost a ≤ totalCost Ex.inp AsgEx.prob.cost Ex.asg := by
  obtain ⟨st, hst⟩ := prepared
  obtain ⟨r, sv', h⟩ := attempt st hst 1
  match r, h with
  | .feasible a, h =>
    have h1 := C06_valid_within_limit AsgEx.prob AsgEx.env AsgEx.prob_ok levels ideal_sound true ASolver.new .new Ex.sch AsgEx.sch_shape st
      hst false 1 ASolver.new sv' a h
    exact ⟨st, a, sv', hst, h, h1.2.1, h1.2.2, C07_cheapest_within_limit_partial AsgEx.prob AsgEx.env AsgEx.prob_ok levels ideal_sound true
      ASolver.new .new Ex.sch AsgEx.sch_shape links ideal_optimal st hst false 1 ASolver.new sv' a h Ex.asg asgValid within1⟩
  | .infeasible, h =>
    exact absurd within1 (C08_infeasible_means_none_partial AsgEx.prob AsgEx.env AsgEx.prob_ok levels ideal_sound true ASolver.new .new Ex.sch
      AsgEx.sch_shape links ideal_complete st hst 1 ASolver.new sv' h Ex.asg asgValid)
  | .incomplete, h =>
    have := solveWithLimit_spec AsgEx.prob_ok AsgEx.sch_shape
      ((prepare_spec (static_spec AsgEx.prob_ok.static) AsgEx.prob_ok.wf (fun st h => (by cases h)) AsgEx.sch_shape).1 st hst)
      ideal_sound false h
    cases this.2.2

theorem atLimit0 : ∃ st sv2, prepare AsgEx.prob ASolver.new Ex.sch = .ok st ∧
    solveWithLimit AsgEx.prob AsgEx.env false st 0 ASolver.new = .ok (.infeasible, sv2) := by
  obtain ⟨st, hst⟩ := prepared
  obtain ⟨r, sv', h⟩ := attempt st hst 0
  match r, h with
  | .feasible a, h =>
    have h1 := C06_valid_within_limit AsgEx.prob AsgEx.env AsgEx.prob_ok levels ideal_sound true ASolver.new .new Ex.sch AsgEx.sch_shape st
      hst false 0 ASolver.new sv' a h
    have hat := h1.2.1.asg ⟨.chooserIsInChoice, 0, .choice 2, .none⟩ (by decide)
    have := h1.2.2 0 2 1 (hat (by decide)) rfl
    omega
  | .infeasible, h => exact ⟨st, sv', hst, h⟩
  | .incomplete, h =>
    have := solveWithLimit_spec AsgEx.prob_ok AsgEx.sch_shape
      ((prepare_spec (static_spec AsgEx.prob_ok.static) AsgEx.prob_ok.wf (fun st h => (by cases h)) AsgEx.sch_shape).1 st hst)
      ideal_sound false h
    cases this.2.2

theorem schedValid : SchedValid Ex.inp Ex.sch :=
  (C02_scheduling_feasible_exact Ex.inp Ex.inp_wf.sched (by decide) (by decide) Ex.sch rfl true (by decide +kernel)).1 rfl

/-- C06: the solved pair is accepted. -/
example : ∃ a, Valid Ex.inp Ex.sch a ∧ Scoring.isFeasibleC Ex.inp Ex.sch a = .ok true := by
  obtain ⟨a, sv', h, _⟩ := AsgEx.solved
  exact ⟨a, C06_solution_accepted AsgEx.prob AsgEx.env AsgEx.prob_ok levels ideal_sound true ASolver.new .new Ex.sch AsgEx.sch_shape
    Ex.inp_sizes schedValid false a sv' h⟩

/-- C09: the binary search over the levels 0, 2, 3, 7 when 3 is the smallest feasible one. -/
def attempts (l n : Nat) : R (LimitResult × Nat) := .ok (if 3 ≤ l then .feasible [[l]] else .infeasible, n + 1)

example := C09_search_finds_smallest attempts [0, 2, 3, 7] 0 (by decide) (fun l => 3 ≤ l) (fun l a => a = [[l]])
  (fun l s _ => ⟨_, rfl⟩)
  (by intro l s a s' h; unfold attempts at h; by_cases h3 : 3 ≤ l <;> simp [h3] at h; exact h.1.symm)
  (by intro l s s' h; unfold attempts at h; by_cases h3 : 3 ≤ l <;> simp [h3] at h ⊢)
  (by decide) (fun l l' h h' => Nat.le_trans h' h) 0

example : (binLoop attempts [0, 2, 3, 7] 0 5 ⟨0, 3, none, true⟩ 0).toOption.bind (·.map (fun r => (r.1.best, r.1.isOptimal, r.2))) =
    some (some [[3]], true, 2) := by decide +kernel

example := C09_solver_search_ends attempts [0, 2, 3, 7] 1 0 (by decide)

/-- C11: a solver that has solved the example scheduling is prepared for another one as a new solver is. -/
example : ∃ a sv', solveUntil AsgEx.prob AsgEx.env false ASolver.new Ex.sch = .ok (some a, sv') ∧
    ∃ st st0, prepare AsgEx.prob sv' [some 1, some 0, some 1, none] = .ok st ∧ prepare AsgEx.prob ASolver.new [some 1, some 0, some 1, none] = .ok st0 ∧
      st.slots = st0.slots ∧ st.covered = st0.covered := by
  obtain ⟨a, sv', h, _⟩ := AsgEx.solved
  have hr : Reach AsgEx.prob AsgEx.env true sv' := Reach.step .new AsgEx.sch_shape h
  have hsh : SchedShape AsgEx.prob.input [some 1, some 0, some 1, none] := ⟨rfl, by
    intro c t h
    match c with
    | 0 => simp [slotAt] at h; subst h; decide
    | 1 => simp [slotAt] at h; subst h; decide
    | 2 => simp [slotAt] at h; subst h; decide
    | 3 => simp [slotAt] at h
    | c + 4 => simp [slotAt] at h⟩
  obtain ⟨st, hst⟩ := C11_update_never_fails AsgEx.prob AsgEx.env AsgEx.prob_ok levels ideal_sound true sv' hr _ hsh (by decide)
  obtain ⟨st0, hst0⟩ := C11_update_never_fails AsgEx.prob AsgEx.env AsgEx.prob_ok levels ideal_sound true ASolver.new .new _ hsh (by decide)
  have := C11_same_as_fresh AsgEx.prob AsgEx.env AsgEx.prob_ok levels ideal_sound true sv' hr _ hsh st st0 hst hst0
  exact ⟨a, sv', h, st, st0, hst, hst0, this.1, this.2.1⟩

/-- C12: what a solved scheduling leaves in the cache, and a call that runs out of time. -/
example : ∃ a sv', solveUntil AsgEx.prob AsgEx.env false ASolver.new Ex.sch = .ok (some a, sv') ∧
    ∀ c, sv'.cached = some c → (c.slots = Ex.sch ∧ some a = some c.assignment) := by
  obtain ⟨a, sv', h, _⟩ := AsgEx.solved
  refine ⟨a, sv', h, fun c hc => ?_⟩
  rcases C12_cache_holds_results AsgEx.prob AsgEx.env AsgEx.prob_ok levels ideal_sound true ASolver.new .new Ex.sch AsgEx.sch_shape false _ sv'
    h c hc with h' | h'
  · cases h'
  · exact h'

/-- A clock that is late from the first time it is read. -/
noncomputable def lateEnv : AEnv := ⟨idealBackend, fun _ => true⟩

example : ∃ r sv', solveUntil AsgEx.prob lateEnv true ASolver.new Ex.sch = .ok (r, sv') ∧ LateDuring lateEnv ASolver.new sv' ∧
    sv'.cached = none := by
  obtain ⟨r, sv', h⟩ := solveUntil_total AsgEx.prob_ok ideal_sound (env := lateEnv) (sv := ASolver.new)
    (fun st h => (by cases h)) AsgEx.sch_shape (by decide) fits true
  refine ⟨r, sv', h, ?_⟩
  have ht : (solveUntil AsgEx.prob lateEnv true ASolver.new Ex.sch).toOption.map (fun r => decide (0 < r.2.ticks)) = some true := by decide +kernel
  rw [h] at ht
  have hl : LateDuring lateEnv ASolver.new sv' := ⟨0, Nat.le_refl _, (by simpa [Except.toOption] using ht), rfl⟩
  exact ⟨hl, C12_inconclusive_not_cached AsgEx.prob lateEnv true ASolver.new sv' Ex.sch r h hl⟩

end Wassign.Instances
