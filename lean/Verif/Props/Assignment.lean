import Verif.Proofs.AsgBridge
import Verif.Props.Build
import Verif.Props.Search
/-
Property theorems about the assignment stage: C06-C12 and C47.

`ProblemOk pr` (Spec/Backend.lean) says that the solver works on well-formed data whose node numbers fit u32 and
whose dependency groups are right; `problemOk_of_built` shows it for everything the builder returns.
`Reach pr env free sv` says that the solver state `sv` results from some sequence of earlier solves.
-/
namespace Wassign
open Spec Build Asg

/-- The data made by the builder is a good problem for the assignment solver, if its size is representable. -/
theorem problemOk_of_built (raw : Raw) (d : InputData) (hmax : ∀ p ∈ raw.choices, p.max ≤ u32Max) (h : build raw = .ok d)
    (hsize : d.np * d.ns + d.nc + d.ns ≤ u32Max) (pr : AProblem) (hin : pr.input = d)
    (hst : StaticData.new d = .ok pr.static) : ProblemOk pr ∧ pr.input.prefLevels.Pairwise (· < ·) ∧
      pr.input.prefLevels.getLast? = some pr.input.maxPref := by
  obtain ⟨m, written, hb⟩ := build_spec hmax h
  obtain ⟨h1, h2, h3, h4, _⟩ := C26_levels_partial raw d hmax h
  subst hin
  refine ⟨⟨hst, hb.wf, hsize, hb.groupsMean⟩, h1, ?_⟩
  generalize pr.input.prefLevels = levels at *
  rcases List.eq_nil_or_concat levels with e | ⟨l, z, rfl⟩
  · subst e; cases h3
  · simp only [List.concat_eq_append, List.getLast?_append, List.getLast?_singleton, Option.some_or, Option.some.injEq] at *
    have hz := h4 z (by simp)
    rw [List.pairwise_append] at h1
    rcases List.mem_append.1 h3 with h | h
    · have := h1.2.2 _ h z (by simp); omega
    · simp at h; exact h.symm

namespace AsgEx

/-- The problem made from the example input, with cost (p + 1)³ and no preference bound. -/
def prob : AProblem where
  input := Ex.inp
  bound := 0
  static := match StaticData.new Ex.inp with | .ok s => s | .error _ => ⟨.empty, [], [], [], [], []⟩
  greedy := false
  cost := fun x => ((x + 1 : Nat) : Int) ^ 3

theorem prob_ok : ProblemOk prob where
  static := by decide +kernel
  wf := Ex.inp_wf
  small := by decide
  groups := by
    have hno : ∀ x y, ¬ SameLink Ex.inp.asgCons x y := by
      rintro x y ⟨c, hc, hk, _⟩
      simp only [Ex.inp, List.mem_cons, List.not_mem_nil, or_false] at hc
      rcases hc with rfl | rfl <;> cases hk
    constructor
    · decide
    · intro a b ha hb
      constructor
      · rintro ⟨g, hg, h1, h2⟩
        have : g = [0] ∨ g = [1] ∨ g = [2] ∨ g = [3] := by simpa [prob, Ex.inp] using hg
        rcases this with rfl | rfl | rfl | rfl <;> (simp at h1 h2; subst h1; subst h2; exact .refl _)
      · intro h
        have : a = b := h.least (P := fun x y => x = y) (fun x y h => absurd h (hno x y)) (fun _ => rfl) (fun _ _ h => h.symm)
          (fun _ _ _ h h' => h.trans h')
        subst this
        have ha' : a < 4 := ha
        match a with
        | 0 => exact ⟨[0], by decide, by simp, by simp⟩
        | 1 => exact ⟨[1], by decide, by simp, by simp⟩
        | 2 => exact ⟨[2], by decide, by simp, by simp⟩
        | 3 => exact ⟨[3], by decide, by simp, by simp⟩
        | a + 4 => omega

/-- The backend that always answers with a cheapest solution, and a clock that is never late. -/
noncomputable def env : AEnv := ⟨idealBackend, fun _ => false⟩

theorem sch_shape : SchedShape Ex.inp Ex.sch := ⟨rfl, by
  intro c t h
  match c with
  | 0 => simp [slotAt, Ex.sch] at h; subst h; decide
  | 1 => simp [slotAt, Ex.sch] at h; subst h; decide
  | 2 => simp [slotAt, Ex.sch] at h; subst h; decide
  | 3 => simp [slotAt, Ex.sch] at h
  | c + 4 => simp [slotAt, Ex.sch] at h⟩

end AsgEx

/-- Everything is within the largest preference. -/
theorem withinMax {pr : AProblem} (hp : ProblemOk pr) (a : Assignment) : WithinLimit pr.input a pr.input.maxPref := by
  intro p c x _ hx
  unfold pref at hx
  cases hc : pr.input.choosers[p]? with
  | none => rw [hc] at hx; cases hx
  | some ch =>
    rw [hc] at hx
    exact hp.wf.prefMax ch (List.mem_of_getElem? hc) x (List.mem_of_getElem? hx)

section
variable (pr : AProblem) (env : AEnv) (hp : ProblemOk pr) (hlev : pr.input.prefLevels.Pairwise (· < ·))
  (hb : Backend.Sound env.backend) (free : Bool) (sv : ASolver) (hsv : Reach pr env free sv)
  (s : Scheduling) (hs : SchedShape pr.input s)
include hp hlev hb hsv hs

/-! ### C06 -/

/-- **C06**: whatever the solver has solved before, with or without deadline, whatever the clock says and
whichever solutions of the linear programs the backend picks: an assignment that is returned has, for every
chooser and slot, a choice scheduled in that slot, and it is valid. -/
theorem C06_solved_assignments_valid (deadline : Bool) (a : Assignment) (sv' : ASolver)
    (h : solveUntil pr env deadline sv s = .ok (some a, sv')) : InOrder pr.input s a ∧ AsgValid pr.input s a := by
  obtain ⟨l, hg, _⟩ := ((reach_solve hp hlev hb hsv hs h).found a rfl).good
  exact ⟨hg.order, hg.valid⟩

/-- **C06** for a fixed preference limit: the assignment is valid and nobody gets a choice worse than the limit. -/
theorem C06_valid_within_limit (st : ScheduleState) (hst : prepare pr sv s = .ok st) (deadline : Bool) (limit : Nat)
    (sv1 sv2 : ASolver) (a : Assignment) (h : solveWithLimit pr env deadline st limit sv1 = .ok (.feasible a, sv2)) :
    InOrder pr.input s a ∧ AsgValid pr.input s a ∧ WithinLimit pr.input a limit := by
  have hok := (prepare_spec (static_spec hp.static) hp.wf (reach_inv hp hlev hb hsv).1 hs).1 st hst
  obtain ⟨_, _, hg⟩ := solveWithLimit_spec hp hs hok hb deadline h
  exact ⟨hg.order, hg.valid, hg.within⟩

/-- **C06**, together with a feasible scheduling (as the scheduling search produces, C03): the pair is a valid
solution, and the feasibility check of the scorer accepts it. -/
theorem C06_solution_accepted (hz : Sizes pr.input) (hsv' : SchedValid pr.input s) (deadline : Bool) (a : Assignment) (sv' : ASolver)
    (h : solveUntil pr env deadline sv s = .ok (some a, sv')) :
    Valid pr.input s a ∧ Scoring.isFeasibleC pr.input s a = .ok true := by
  obtain ⟨ho, hv⟩ := C06_solved_assignments_valid pr env hp hlev hb free sv hsv s hs deadline a sv' h
  have hval : Valid pr.input s a := ⟨hsv'.cons, hv.asg, hv.onePerSlot, hv.onlyScheduled, hv.bounds⟩
  exact ⟨hval, isFeasibleC_complete ⟨hs.len, ho.rows, ho.cols⟩ hz hp.wf hs.range hval⟩

/-! ### C07 -/

/-- **C07**, partial: for a fixed preference limit the assignment costs least among all valid assignments of the
scheduling within the limit. Missing: schedulings in which two scheduled choices are tied together only through
an unscheduled one (`hlinks` excludes them), where the claim is false (`C07_not_cheapest`). -/
theorem C07_cheapest_within_limit_partial (hlinks : LinksScheduled pr.input s) (hopt : Backend.Optimal env.backend)
    (st : ScheduleState) (hst : prepare pr sv s = .ok st) (deadline : Bool) (limit : Nat)
    (sv1 sv2 : ASolver) (a : Assignment) (h : solveWithLimit pr env deadline st limit sv1 = .ok (.feasible a, sv2)) :
    ∀ a', AsgValid pr.input s a' → WithinLimit pr.input a' limit →
      totalCost pr.input pr.cost a ≤ totalCost pr.input pr.cost a' := by
  have hok := (prepare_spec (static_spec hp.static) hp.wf (reach_inv hp hlev hb hsv).1 hs).1 st hst
  obtain ⟨_, _, hg⟩ := solveWithLimit_spec hp hs hok hb deadline h
  intro a' h1 h2
  exact hg.least hopt a' h1 h2 (alike_of_links hp.groups hlinks h1)

/-- **C07**, full for inputs without optional choices: feasible schedulings schedule everything. -/
theorem C07_cheapest_if_nothing_optional (hman : ∀ c ∈ pr.input.choices, c.isOptional = false) (hsv' : SchedValid pr.input s)
    (hopt : Backend.Optimal env.backend)
    (st : ScheduleState) (hst : prepare pr sv s = .ok st) (deadline : Bool) (limit : Nat)
    (sv1 sv2 : ASolver) (a : Assignment) (h : solveWithLimit pr env deadline st limit sv1 = .ok (.feasible a, sv2)) :
    ∀ a', AsgValid pr.input s a' → WithinLimit pr.input a' limit →
      totalCost pr.input pr.cost a ≤ totalCost pr.input pr.cost a' :=
  C07_cheapest_within_limit_partial pr env hp hlev hb free sv hsv s hs
    (links_of_all hp.wf (fun c hc => hsv'.mandatory c hc (hman _ (List.getElem_mem hc)))) hopt st hst deadline limit sv1 sv2 a h

/-- **C07**, partial, for the whole solve: the assignment returned costs least among the valid ones that are no
worse for anybody than the worst it contains — in greedy mode among all valid ones. -/
theorem C07_cheapest_partial (hlinks : LinksScheduled pr.input s) (hopt : Backend.Optimal env.backend)
    (deadline : Bool) (a : Assignment) (sv' : ASolver) (h : solveUntil pr env deadline sv s = .ok (some a, sv')) :
    (pr.greedy = true → ∀ a', AsgValid pr.input s a' →
      totalCost pr.input pr.cost a ≤ totalCost pr.input pr.cost a') ∧
    ∀ a' w, AsgValid pr.input s a' → IsWorst pr.input a w → WithinLimit pr.input a' w →
      totalCost pr.input pr.cost a ≤ totalCost pr.input pr.cost a' := by
  obtain ⟨l, hg, hgr, _⟩ := ((reach_solve hp hlev hb hsv hs h).found a rfl).good
  refine ⟨?_, ?_⟩
  · intro hgreedy a' hv
    refine hg.least hopt a' hv ?_ (alike_of_links hp.groups hlinks hv)
    rw [hgr hgreedy]
    exact withinMax hp a'
  · intro a' w hv hw hwl
    refine hg.least hopt a' hv ?_ (alike_of_links hp.groups hlinks hv)
    have : w ≤ l := by
      rcases hw.attained with e | ⟨p, c, h1, h2⟩
      · omega
      · exact hg.within p c w h1 h2
    intro p c x h1 h2
    exact Nat.le_trans (hwl p c x h1 h2) this

/-! ### C08 -/

/-- **C08**, partial: if solving for a limit without a deadline reports infeasible, no valid assignment of the
scheduling respects the limit. Missing: as for C07; false without `hlinks` (`C08_none_although_one_exists`). -/
theorem C08_infeasible_means_none_partial (hlinks : LinksScheduled pr.input s) (hcomp : Backend.Complete env.backend)
    (st : ScheduleState) (hst : prepare pr sv s = .ok st) (limit : Nat) (sv1 sv2 : ASolver)
    (h : solveWithLimit pr env false st limit sv1 = .ok (.infeasible, sv2)) :
    ∀ a, AsgValid pr.input s a → ¬ WithinLimit pr.input a limit := by
  have hok := (prepare_spec (static_spec hp.static) hp.wf (reach_inv hp hlev hb hsv).1 hs).1 st hst
  obtain ⟨_, _, hg⟩ := solveWithLimit_spec hp hs hok hb false h
  intro a hv hw
  exact hg rfl hcomp ⟨a, hv, hw, alike_of_links hp.groups hlinks hv⟩

/-- **C08**, partial: if a solve without deadline returns nothing, the scheduling has no valid assignment. -/
theorem C08_none_means_none_partial (hlinks : LinksScheduled pr.input s) (hcomp : Backend.Complete env.backend)
    (hlast : pr.input.prefLevels.getLast? = some pr.input.maxPref) (sv' : ASolver)
    (h : solveUntil pr env false sv s = .ok (none, sv')) : ∀ a, ¬ AsgValid pr.input s a := by
  intro a hv
  exact (reach_solve hp hlev hb hsv hs h).none rfl rfl hcomp hlast
    ⟨a, hv, withinMax hp a, alike_of_links hp.groups hlinks hv⟩

end

/-- The hypotheses of C06-C08 are met: the example problem with the ideal backend is solved (and returns an
assignment), on a fresh solver as on a used one. -/
theorem AsgEx.solved : ∃ a sv', solveUntil AsgEx.prob AsgEx.env false ASolver.new Ex.sch = .ok (some a, sv') ∧
    InOrder Ex.inp Ex.sch a ∧ AsgValid Ex.inp Ex.sch a := by
  have hsh := AsgEx.sch_shape
  have hlev : AsgEx.prob.input.prefLevels.Pairwise (· < ·) := by decide
  have hsch : ∀ c t, slotAt Ex.sch c = some t ↔ (c = 0 ∧ t = 0) ∨ (c = 1 ∧ t = 1) ∨ (c = 2 ∧ t = 1) := by
    intro c t
    match c with
    | 0 => simp [slotAt, Ex.sch]; omega
    | 1 => simp [slotAt, Ex.sch]; omega
    | 2 => simp [slotAt, Ex.sch]; omega
    | 3 => simp [slotAt, Ex.sch]
    | c + 4 => simp [slotAt, Ex.sch]
  have hfit : FlowFits Ex.inp Ex.sch := by
    constructor
    · decide +kernel
    · decide
    · decide +kernel
    · decide +kernel
  obtain ⟨r, sv', h⟩ := solveUntil_total AsgEx.prob_ok ideal_sound (env := AsgEx.env) (sv := ASolver.new)
    (fun st h => (by cases h)) hsh (by decide) hfit false
  have hval : AsgValid Ex.inp Ex.sch Ex.asg := by
    have := (isFeasibleC_spec (b := true) Ex.shape (by decide) Ex.inp_wf (by decide +kernel)).1 rfl
    exact ⟨this.onePerSlot, this.onlyScheduled, this.bounds, this.asg⟩
  have hlinks : LinksScheduled Ex.inp Ex.sch := by
    intro a b _ _ h
    refine h.mono ?_
    rintro x y ⟨c, hc, hk, _⟩
    simp only [Ex.inp, List.mem_cons, List.not_mem_nil, or_false] at hc
    rcases hc with rfl | rfl <;> cases hk
  cases r with
  | none =>
    exact absurd hval (C08_none_means_none_partial AsgEx.prob AsgEx.env AsgEx.prob_ok hlev ideal_sound true _ .new Ex.sch hsh hlinks
      ideal_complete rfl sv' h _)
  | some a => exact ⟨a, sv', h, C06_solved_assignments_valid AsgEx.prob AsgEx.env AsgEx.prob_ok hlev ideal_sound true _ .new Ex.sch hsh false a sv' h⟩

end Wassign
