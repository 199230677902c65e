import Verif.Proofs.Exponent
import Verif.Props.Pareto
import Verif.Props.AssignmentSearch
/-
C87, C88: which preference exponents have the effect the manual describes.
-/
namespace Wassign
open Spec Build Asg

/-- **C87**: with an exponent of at least 1 a worse preference always costs more. -/
theorem C87_cost_increases (e : ℝ) (he : 1 ≤ e) (cost : Nat → Int) (m : Nat) (hc : ∀ x ≤ m, cost x = exactCost e x) : Increasing cost m := by
  intro x hx
  rw [hc x (by omega), hc (x + 1) (by omega)]
  exact exactCost_step he x

/-- **C88**: with an exponent of at least 2 each step to a worse preference costs more than the step before. -/
theorem C88_cost_accelerates (e : ℝ) (he : 2 ≤ e) (cost : Nat → Int) (m : Nat) (hc : ∀ x ≤ m, cost x = exactCost e x) :
    Accelerating cost m := by
  refine ⟨C87_cost_increases e (by linarith) cost m hc, fun x hx => ?_⟩
  rw [hc x (by omega), hc (x + 1) (by omega), hc (x + 2) (by omega)]
  exact exactCost_bend he x

/-- The default exponent: the exact cost is the cube. -/
theorem cubeCost_exact (x : Nat) : cubeCost x = exactCost 3 x := by
  have := exactCost_nat 3 x
  rw [show ((3 : Nat) : ℝ) = 3 by norm_num] at this
  rw [this]
  rfl

/-- **C87 fails for exponents below 1**: the fraction is cut off, so that a perfect choice (0) costs as much as the next best (1). -/
theorem C87_small_exponents_do_not_tell (e : ℝ) (h0 : 0 ≤ e) (h1 : e < 1) : exactCost e 0 = 1 ∧ exactCost e 1 = 1 := by
  constructor
  · unfold exactCost
    norm_num
  · unfold exactCost
    rw [Int.floor_eq_iff]
    push_cast
    rw [show (1 : ℝ) + 1 = 2 by norm_num]
    constructor
    · calc (1 : ℝ) = 2 ^ (0 : ℝ) := by simp
        _ ≤ 2 ^ e := Real.rpow_le_rpow_of_exponent_le (by norm_num) h0
    · calc (2 : ℝ) ^ e < 2 ^ (1 : ℝ) := Real.rpow_lt_rpow_of_exponent_lt (by norm_num) h1
        _ = 2 := by simp

namespace EvenEx

/-- Three choosers, three choices for one person each. -/
def raw : Raw where
  slots := ["Mo".toList]
  choices := [⟨"A".toList, 1, 1, 1, false⟩, ⟨"B".toList, 1, 1, 1, false⟩, ⟨"C".toList, 1, 1, 1, false⟩]
  choosers := [⟨"p".toList, [2, 1, 0]⟩, ⟨"q".toList, [1, 0, 0]⟩, ⟨"r".toList, [0, 0, 6]⟩]
  exprs := []

def d : InputData := dataOf raw

theorem built : build raw = .ok d := by decide +kernel

def s : Scheduling := [some 0, some 0, some 0]

/-- The costs for exponent 1.1. -/
def cost : Nat → Int
  | 0 => 1
  | 1 => 2
  | 2 => 3
  | 3 => 4
  | 4 => 5
  | 5 => 7
  | 6 => 8
  | _ => 0

theorem cost_exact : ∀ x ≤ d.maxPref, cost x = exactCost (11 / 10) x := by
  have hm : d.maxPref = 6 := by decide +kernel
  have he : ((11 : ℝ) / 10) = ((11 : Nat) : ℝ) / ((10 : Nat) : ℝ) := by norm_num
  intro x hx
  rw [hm] at hx
  have key : ∀ v : Nat, v ^ 10 ≤ (x + 1) ^ 11 → (x + 1) ^ 11 < (v + 1) ^ 10 → exactCost (11 / 10) x = v :=
    fun v h1 h2 => exactCost_eq he (by norm_num) h1 h2
  clear hm
  rcases (by omega : x = 0 ∨ x = 1 ∨ x = 2 ∨ x = 3 ∨ x = 4 ∨ x = 5 ∨ x = 6) with rfl | rfl | rfl | rfl | rfl | rfl | rfl
  · rw [key 1 (by norm_num) (by norm_num)]; rfl
  · rw [key 2 (by norm_num) (by norm_num)]; rfl
  · rw [key 3 (by norm_num) (by norm_num)]; rfl
  · rw [key 4 (by norm_num) (by norm_num)]; rfl
  · rw [key 5 (by norm_num) (by norm_num)]; rfl
  · rw [key 7 (by norm_num) (by norm_num)]; rfl
  · rw [key 8 (by norm_num) (by norm_num)]; rfl

/-- The problem for these costs. -/
def prob : AProblem := { probOf d with cost := cost }

theorem shape : SchedShape d s := by
  refine ⟨by decide +kernel, ?_⟩
  intro c t h
  rw [show d.ns = 1 by decide +kernel]
  match c with
  | 0 => simp [slotAt, s] at h; omega
  | 1 => simp [slotAt, s] at h; omega
  | 2 => simp [slotAt, s] at h; omega
  | c + 3 => simp [slotAt, s] at h

theorem ok : ProblemOk prob ∧ prob.input.prefLevels.Pairwise (· < ·) ∧ prob.input.prefLevels.getLast? = some prob.input.maxPref :=
  problemOk_of_built raw d (by decide) built (by decide +kernel) prob rfl (by decide +kernel)

theorem fits : FlowFits d s := by
  constructor
  · decide +kernel
  · decide +kernel
  · decide +kernel
  · decide +kernel

/-- q gets A and p gets B: 5 and 5. -/
def even : Assignment := [[1], [0], [2]]
/-- p gets A and q gets B: 4 and 6. -/
def uneven : Assignment := [[0], [1], [2]]

theorem even_valid : AsgValid d s even :=
  valid_of_check ⟨by decide +kernel, by decide +kernel, by decide +kernel⟩ (by decide +kernel) ok.1.wf (by decide +kernel)

theorem uneven_valid : AsgValid d s uneven :=
  valid_of_check ⟨by decide +kernel, by decide +kernel, by decide +kernel⟩ (by decide +kernel) ok.1.wf (by decide +kernel)

theorem sched_valid : SchedValid d s :=
  (C02_scheduling_feasible_exact d ok.1.wf.sched (by decide +kernel) (by decide +kernel) s (by decide +kernel) true (by decide +kernel)).1 rfl

theorem sizes : Sizes d := by constructor <;> decide +kernel

/-- All candidates: only `uneven` costs at most 14, and all valid ones contain something worse than level 2. -/
theorem all_candidates : ∀ x < 3, ∀ y < 3, ∀ z < 3, Scoring.isFeasibleC d s [[x], [y], [z]] = .ok true →
    (totalCost d cost [[x], [y], [z]] ≤ 14 → ([[x], [y], [z]] : List (List Nat)) = uneven) ∧
    (3 ≤ value d [[x], [y], [z]] 0 0 ∨ 3 ≤ value d [[x], [y], [z]] 1 0 ∨ 3 ≤ value d [[x], [y], [z]] 2 0) := by
  have key : ((List.range 3).all fun x => (List.range 3).all fun y => (List.range 3).all fun z =>
      decide (Scoring.isFeasibleC d s [[x], [y], [z]] = .ok true → ((totalCost d cost [[x], [y], [z]] ≤ 14 → x = 0 ∧ y = 1 ∧ z = 2) ∧
        (3 ≤ value d [[x], [y], [z]] 0 0 ∨ 3 ≤ value d [[x], [y], [z]] 1 0 ∨ 3 ≤ value d [[x], [y], [z]] 2 0)))) = true := by decide +kernel
  intro x hx y hy z hz hf
  rw [List.all_eq_true] at key
  have key := key x (by simpa using hx)
  rw [List.all_eq_true] at key
  have key := key y (by simpa using hy)
  rw [List.all_eq_true] at key
  have key := of_decide_eq_true (key z (by simpa using hz)) hf
  refine ⟨fun h => ?_, key.2⟩
  obtain ⟨rfl, rfl, rfl⟩ := key.1 h
  rfl

theorem in0 {c : Nat} (h : slotAt s c = some 0) : c < 3 := by
  match c with
  | 0 => omega
  | 1 => omega
  | 2 => omega
  | c + 3 => simp [slotAt, s] at h

end EvenEx

/-- **C88 fails for exponents between 1 and 2**, for example 1.1: cutting off the fraction makes the steps uneven (the costs of 4, 5, 6
are 5, 7, 8), so 4 and 6 are cheaper than 5 and 5. With every sound, optimal and complete backend the program assigns p, q the
preference values 4 and 6 although 5 and 5 is possible, also without `--greedy`. -/
theorem C88_uneven_with_exponent_between : build EvenEx.raw = .ok EvenEx.d ∧ (∀ x ≤ EvenEx.d.maxPref, EvenEx.prob.cost x = exactCost (11 / 10) x) ∧
    SchedValid EvenEx.d EvenEx.s ∧ AsgValid EvenEx.d EvenEx.s EvenEx.even ∧ MoreEven EvenEx.d EvenEx.even EvenEx.uneven ∧
    ∀ env : AEnv, Backend.Sound env.backend → Backend.Optimal env.backend → Backend.Complete env.backend →
      ∃ sv', solveUntil EvenEx.prob env false ASolver.new EvenEx.s = .ok (some EvenEx.uneven, sv') := by
  have hnp : EvenEx.d.np = 3 := by decide +kernel
  have hns : EvenEx.d.ns = 1 := by decide +kernel
  refine ⟨EvenEx.built, EvenEx.cost_exact, EvenEx.sched_valid, EvenEx.even_valid, ?_, ?_⟩
  · refine C88_exchange_is_more_even EvenEx.d EvenEx.uneven EvenEx.even 0 0 1 0 (by omega) (by omega) (by omega) (by omega) (by omega) ?_
      (by decide +kernel) (by decide +kernel)
    intro x hx y hy h1 h2
    rw [hnp] at hx
    rw [hns] at hy
    have hy : y = 0 := by omega
    subst hy
    have hx : x = 2 := by omega
    subst hx
    decide +kernel
  · intro env hb ho hc
    obtain ⟨hp, hlev, hlast⟩ := EvenEx.ok
    obtain ⟨r, sv', h⟩ := solveUntil_total hp hb (env := env) (sv := ASolver.new) (fun st h => (by cases h)) EvenEx.shape
      (by decide +kernel) EvenEx.fits false
    have hlinks : LinksScheduled EvenEx.d EvenEx.s := links_of_all hp.wf (by
      intro c hc'
      have : c < 3 := by rw [show 3 = EvenEx.d.nc by decide +kernel]; exact hc'
      rcases (by omega : c = 0 ∨ c = 1 ∨ c = 2) with rfl | rfl | rfl <;> simp [slotAt, EvenEx.s])
    have hres := reach_solve hp hlev hb (.new) EvenEx.shape h
    cases r with
    | none =>
      exact absurd ⟨EvenEx.even, EvenEx.even_valid, withinMax hp _, alike_of_links hp.groups hlinks EvenEx.even_valid⟩
        (hres.none rfl rfl hc hlast)
    | some a =>
      obtain ⟨l, hg, _, hk⟩ := (hres.found a rfl).good
      obtain ⟨k, _, k2, _⟩ := hk rfl
      have hl : l = 0 ∨ l = 1 ∨ l = 2 ∨ l = 6 := by
        have := List.mem_of_getElem? k2
        rw [show EvenEx.prob.input.prefLevels = [0, 1, 2, 6] by decide +kernel] at this
        simpa using this
      have hsh : Shape EvenEx.d EvenEx.s a := ⟨EvenEx.shape.len, hg.order.rows, hg.order.cols⟩
      have hval : Valid EvenEx.d EvenEx.s a := ⟨EvenEx.sched_valid.cons, hg.valid.asg, hg.valid.onePerSlot, hg.valid.onlyScheduled, hg.valid.bounds⟩
      have hfeas := isFeasibleC_complete hsh EvenEx.sizes hp.wf EvenEx.shape.range hval
      obtain ⟨x, y, z, rfl⟩ : ∃ x y z, a = [[x], [y], [z]] := by
        have hrows := hg.order.rows
        have hcols := hg.order.cols
        rw [show EvenEx.prob.input.np = 3 from hnp] at hrows
        rw [show EvenEx.prob.input.ns = 1 from hns] at hcols
        match a, hrows with
        | [r1, r2, r3], _ =>
          have h1 := hcols r1 (by simp)
          have h2 := hcols r2 (by simp)
          have h3 := hcols r3 (by simp)
          match r1, h1, r2, h2, r3, h3 with
          | [x], _, [y], _, [z], _ => exact ⟨x, y, z, rfl⟩
      obtain ⟨hu, hworst⟩ := EvenEx.all_candidates x (EvenEx.in0 (hg.order.slot 0 0 x rfl)) y (EvenEx.in0 (hg.order.slot 1 0 y rfl))
        z (EvenEx.in0 (hg.order.slot 2 0 z rfl)) hfeas
      have hl6 : l = 6 := by
        have w0 := value_within hg.within 0 0
        have w1 := value_within hg.within 1 0
        have w2 := value_within hg.within 2 0
        change value EvenEx.d _ 0 0 ≤ l at w0
        change value EvenEx.d _ 1 0 ≤ l at w1
        change value EvenEx.d _ 2 0 ≤ l at w2
        omega
      have hmax : WithinLimit EvenEx.d EvenEx.uneven l := by
        have := withinMax hp EvenEx.uneven
        rw [show EvenEx.prob.input.maxPref = 6 by decide +kernel] at this
        rw [hl6]; exact this
      have hle := hg.least ho EvenEx.uneven EvenEx.uneven_valid hmax (alike_of_links hp.groups hlinks EvenEx.uneven_valid)
      change totalCost EvenEx.d EvenEx.cost _ ≤ totalCost EvenEx.d EvenEx.cost EvenEx.uneven at hle
      rw [show totalCost EvenEx.d EvenEx.cost EvenEx.uneven = 14 by decide +kernel] at hle
      exact ⟨sv', by rw [h]; exact congrArg (fun a => Except.ok (some a, sv')) (hu hle)⟩

end Wassign

namespace Wassign
open Spec Build Threaded Main Reader Hill
variable {F σ : Type}

/-- **C87**, **C88** for the program, full for inputs without optional choices and costs computed exactly: with a preference exponent
of at least 1 no valid assignment of the printed scheduling is better for everybody than the one printed, and with an exponent of at
least 2 none is more even. (Whatever the clock says, however many workers there are and whichever best solutions the backend picks.) -/
theorem C88_printed_fair_if_nothing_optional (raw : Raw) (tr : List Reader.Event) (hdes : Describes tr raw) (d : InputData) (h : build raw = .ok d)
    (hr : ManageableRaw raw) (hd : Manageable d) (o : Outside F σ) (ho : Trusted o d.nc)
    (opts : Opts F) (hcs : 0 ≤ opts.csTimeout) (p : Prepared) (hp : prepare o d opts = .ok p)
    (g : Session σ ASolver (σ × Nat)) (hg : Run (setup o p opts) (start (setup o p opts)) g)
    (hopt : ∀ tid, Backend.Optimal (o.backend tid)) (hman : ∀ c ∈ d.choices, c.isOptional = false)
    (e : ℝ) (hc : ∀ x ≤ d.maxPref, o.cost opts.prefExp x = exactCost e x) (he : 1 ≤ e) :
    report p g = .ok .noSolution ∨
    ∃ s a sched asg, SchedShape d s ∧ Shape d s a ∧ Valid d s a ∧ Placed d s ∧ report p g = .ok (.tables sched asg) ∧
      (∃ table, asg = csv table ∧ AssignmentTable d s a table) ∧
      ∀ a', Shape d s a' → Valid d s a' → ¬ BetterForAll d a' a ∧ (2 ≤ e → ¬ MoreEven d a' a) := by
  have hmax := fun q hq => ((described_fit hdes).1 q hq).2.1
  have hpp := hp
  unfold prepare at hpp
  simp only [R.bind_eq_ok] at hpp
  obtain ⟨an, han, S, hS, hpp⟩ := hpp
  obtain ⟨hok, hlev', _⟩ := problemOk_of_built raw d hmax h hd.nodes (asgProblem o p opts) (by cases hpp; rfl) (by cases hpp; exact hS)
  have hin : p.input = d := by cases hpp; rfl
  rcases printed_made raw tr hdes d h hr hd o ho opts hcs p hp g hg with e' | ⟨s, a, sched, asg, h1, h2, h3, h4, h5, h6, tid, free, sv, sv', h7, h8⟩
  · exact .inl e'
  refine .inr ⟨s, a, sched, asg, h1, h2, h3, h4, h5, h6, ?_⟩
  subst hin
  intro a' hsh' hv'
  have hlinks : LinksScheduled p.input s := links_of_all hok.wf fun c hc => h4 c hc (hman _ (List.getElem_mem hc))
  have hav : AsgValid p.input s a' := ⟨hv'.onePerSlot, hv'.onlyScheduled, hv'.bounds, hv'.asg⟩
  refine ⟨?_, fun he2 => ?_⟩
  · exact C87_not_improvable_partial (asgProblem o p opts) (asgEnv o tid) hok hlev' (ho.backend tid) free sv h7 s h1
      (C87_cost_increases e he _ _ hc) hlinks (hopt tid) true a sv' h8 a' hsh' hav
  · exact C88_not_more_even_partial (asgProblem o p opts) (asgEnv o tid) hok hlev' (ho.backend tid) free sv h7 s h1
      (C88_cost_accelerates e he2 _ _ hc) hlinks (hopt tid) true a sv' h8 a' hsh' hav

end Wassign
