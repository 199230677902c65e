import Verif.Instances.Assignment
import Verif.Instances.Climb
import Verif.Instances.Input
import Verif.Props.Total
import Verif.Props.Verdict
import Verif.Props.Objective
import Verif.Props.Process
import Verif.Props.Deadline
import Verif.Props.Work
import Verif.Props.Status
import Verif.Props.Stated
import Verif.Props.Climb
import Verif.Props.Order
import Verif.Props.Display
import Verif.Props.Args
/-
Concrete cases that meet the hypotheses of the theorems about whole runs of the program (Props/Main, Session, Verdict, Process,
Deadline, Status, Stated, Display, Args).
-/
namespace Wassign.Instances
open Spec Build Wassign Threaded Main

/-! ### C07, C12 -/

/-- Nothing is optional in `WorstEx`: at limit 100 the solver finds a cheapest solution. -/
example (env : AEnv) (hb : Backend.Sound env.backend) (ho : Backend.Optimal env.backend) (st : ScheduleState)
    (hst : Asg.prepare (probOf WorstEx.d) ASolver.new WorstEx.s = .ok st) (sv2 : ASolver) (a : Assignment)
    (h : Asg.solveWithLimit (probOf WorstEx.d) env false st 100 ASolver.new = .ok (.feasible a, sv2)) :
    totalCost WorstEx.d (probOf WorstEx.d).cost a ≤ totalCost WorstEx.d (probOf WorstEx.d).cost WorstEx.fair :=
  C07_cheapest_if_nothing_optional (probOf WorstEx.d) env WorstEx.ok.1 WorstEx.ok.2.1 hb true ASolver.new .new WorstEx.s WorstEx.shape
    (by show ∀ c ∈ WorstEx.d.choices, c.isOptional = false; decide +kernel)
    ((C02_scheduling_feasible_exact WorstEx.d WorstEx.ok.1.wf.sched (by decide +kernel) (by decide +kernel) WorstEx.s (by decide +kernel)
      true (by decide +kernel)).1 rfl) ho st hst false 100 ASolver.new sv2 a h WorstEx.fair WorstEx.fair_valid (by
        have hl : ∀ c ∈ WorstEx.d.choosers, ∀ x ∈ c.prefs, x ≤ 100 := by decide +kernel
        intro p c x hx hp
        obtain ⟨ch, h1, h2⟩ := Option.bind_eq_some_iff.1 hp
        exact hl ch (List.mem_of_getElem? h1) x (List.mem_of_getElem? h2))

/-- After another scheduling was solved. -/
example (sv : ASolver) (c : CachedAssignment) (hc : sv.cached = some c) (h : c.slots = [some 0, some 1, some 1, some 0]) :=
  C12_other_schedulings_unaffected AsgEx.prob AsgEx.env false sv Ex.sch (fun c' h' => by rw [hc] at h'; cases h'; rw [h]; decide)

/-! ### C45, C46, C47, C51 -/

/-- Hike's two parts belong together, and so do Chess and Go. -/
example := C45_groups_are_the_closure BuildEx.data.asgCons BuildEx.data.nc (by decide +kernel) (by
  have h : ∀ c ∈ BuildEx.data.asgCons, c.kind = .choicesHaveSameChoosers →
      (match c.right with | .choice y => decide (c.left < BuildEx.data.nc ∧ y < BuildEx.data.nc) | _ => false) = true := by decide +kernel
  intro c hc hk
  have := h c hc hk
  cases hr : c.right with
  | choice y => rw [hr] at this; have := of_decide_eq_true this; exact ⟨y, rfl, this.1, this.2⟩
  | _ => rw [hr] at this; cases this)

/-- The second part of "Hike" is one slot after the first: this constraint is looked up for it. -/
example : (⟨.choicesHaveOffset, 0, .choice 1, .offset 1⟩ : Constraint) ∈ BuildEx.data.schedConsFor 1 :=
  (C46_lookup_exact BuildEx.raw BuildEx.data rawMax BuildEx.built 1 (by decide +kernel) _).2 ⟨by decide +kernel, .inr rfl⟩

example (n : NodeId) (hn : ∀ p t, n = .chooser p t → p < 2147483646) (h : n.key = NodeId.key (.chooser 1 2)) : n = .chooser 1 2 := by
  obtain ⟨k, hk⟩ := ok_of_isOk (x := NodeId.key (.chooser 1 2)) (by decide +kernel)
  exact C47_node_keys_injective n (.chooser 1 2) k hn (by intro p t e; cases e; decide) (h.trans hk) hk

example (a b k : Nat) (h : edgeId a b = .ok k) (h' : edgeId 3 4 = .ok k) : a = 3 ∧ b = 4 := C47_edge_keys_injective a b 3 4 k h h'
example : (edgeId 3 4).isOk = true := by decide +kernel

def network : StaticData := match StaticData.new Ex.inp with
  | .ok s => s
  | .error _ => ⟨.empty, [], [], [], [], []⟩
example : (network.baseFlow.nodeMap.map Prod.fst).Nodup ∧ network.baseFlow.nodeMap.length = 3 * 2 + 4 + 2 :=
  C47_network_node_keys_distinct Ex.inp network (by decide) (by
    obtain ⟨s, h⟩ := ok_of_isOk (x := StaticData.new Ex.inp) (by decide +kernel)
    unfold network
    rw [h])


example := C51_double_negation Ex.inp ⟨.slotHasLimitedSize, 0, .limit 3, .limitOp .leq⟩ (by unfold Negatable; decide) (by decide)

/-! ### C52, C53 -/

/-- A script that stops with an error of its own. -/
theorem stops : TryRun MainEx.outside ReadEx.opts .fail (.error (.error "script error")) := .rejected rfl

example := C52_errors MainEx.outside Ex.counter_lawful ReadEx.opts .fail _ stops

/-- A slot that does not exist is added. -/
example (w' : World Unit) (f : Fault)
    (h : Reader.exec ReadEx.env (.add .slot 7) (outcome ReadEx.env ReadEx.opts ReadEx.script).2.1 = (.error f, w')) :
    w' = (outcome ReadEx.env ReadEx.opts ReadEx.script).2.1 :=
  C53_failed_call_has_no_effect ReadEx.opts ReadEx.script (.add .slot 7) f w' h
example : (Reader.exec ReadEx.env (.add .slot 7) (outcome ReadEx.env ReadEx.opts ReadEx.script).2.1).1.isOk = false := by decide +kernel

/-! ### C44, C56, C57: the run of `MainEx` -/

example := C44_workers_differ (o := MainEx.outside) MainEx.prepared (Reader.effectiveOptions MainEx.read.2)
example := C56_options_reach_workers (o := MainEx.outside) MainEx.data _ MainEx.prepared MainEx.prepare_ok 3

/-- The same with `--any`. -/
def anyOpts : Opts Unit := { Reader.effectiveOptions MainEx.read.2 with any := true }
def anyPrepared : Prepared := match prepare MainEx.outside MainEx.data anyOpts with
  | .ok p => p
  | .error _ => MainEx.prepared
def anyCfg := setup MainEx.outside anyPrepared anyOpts
/-- Worker 2 finds a solution while the others have not begun. -/
def anyMid := ThEx.exec anyCfg [2, 2, 2] (start anyCfg)

theorem any_prepared : prepare MainEx.outside MainEx.data anyOpts = .ok anyPrepared := by
  obtain ⟨p, h⟩ := ok_of_isOk (x := prepare MainEx.outside MainEx.data anyOpts) (by decide +kernel)
  unfold anyPrepared
  rw [h]

theorem any_found : anyMid.cancelled = true ∧ anyMid.workers.map (fun w => (w.phase, w.st.progress.bestScore.isFinite)) =
    [(.check, false), (.check, false), (.finished, true), (.check, false)] := by decide +kernel

example : anyCfg.any = true ∧ ∃ w ∈ anyMid.workers, w.st.progress.bestScore.isFinite = true :=
  C56_cancelled_only_with_any anyCfg anyMid (ThEx.exec_undisturbed _ _ _) any_found.1

example (w : Worker Nat ASolver (Nat × Nat)) (hw : w ∈ anyMid.workers) (hf : w.st.progress.bestScore.isFinite = true) :=
  let ⟨_, h1, h2⟩ := C55_input_as_described _ _ _ MainEx.read_ok
  C56_any_ends_session (o := MainEx.outside) Ex.counter_lawful h1 MainEx.data h2 anyOpts anyPrepared any_prepared rfl anyMid
    (ThEx.exec_run _ _ _) w hw hf

/-- Another interleaving of the four workers of `MainEx`: one after the other. -/
def inTurn := ThEx.exec MainEx.cfg [0, 0, 0, 0, 0, 0, 0, 1, 1, 1, 1, 1, 1, 1, 2, 2, 2, 2, 2, 2, 2, 3, 3, 3, 3, 3, 3, 3] (start MainEx.cfg)

theorem inTurn_over : inTurn.over := by
  have hp : inTurn.workers.map (fun w => w.phase) = [.finished, .finished, .finished, .finished] := by decide +kernel
  intro w hw
  have h := List.mem_map_of_mem (f := fun w : Worker Nat ASolver (Nat × Nat) => w.phase) hw
  rw [hp] at h
  simp at h
  exact .inl h

example : report MainEx.prepared MainEx.final = report MainEx.prepared inTurn :=
  C57_same_output (o := MainEx.outside) MainEx.prepared (Reader.effectiveOptions MainEx.read.2) (by decide +kernel) _ _
    (ThEx.exec_undisturbed _ _ _) (ThEx.exec_undisturbed _ _ _) MainEx.final_over inTurn_over

/-! ### C58, C61, C69: the input of `ClimbEx` -/

theorem climb_solution : SchedShape ClimbEx.data [some 0, some 1, some 0, none] ∧
    Valid ClimbEx.data [some 0, some 1, some 0, none] [[0, 1], [2, 1]] ∧ Placed ClimbEx.data [some 0, some 1, some 0, none] ∧
    Spec.Shape ClimbEx.data [some 0, some 1, some 0, none] [[0, 1], [2, 1]] := by
  refine ⟨⟨by decide +kernel, ?_⟩, ?_, ?_, ?_⟩
  · intro c t h
    have hns : ClimbEx.data.ns = 2 := by decide +kernel
    rw [hns]
    match c with
    | 0 => simp [slotAt] at h; omega
    | 1 => simp [slotAt] at h; omega
    | 2 => simp [slotAt] at h; omega
    | 3 => simp [slotAt] at h
    | n + 4 => simp [slotAt] at h
  · refine (C01_feasibility_exact _ ?_ ?_ _ _ ⟨?_, ?_, ?_⟩ true ?_).1 rfl
    all_goals decide +kernel
  · unfold Placed
    decide +kernel
  · refine ⟨?_, ?_, ?_⟩
    all_goals decide +kernel

/-- There is a solution, so without a time limit and `--any` the session never ends. -/
example (g : Session Nat ASolver (Nat × Nat))
    (hg : Undisturbed (setup ClimbEx.ideal ClimbEx.prepared ClimbEx.eff) (start (setup ClimbEx.ideal ClimbEx.prepared ClimbEx.eff)) g) :
    ¬ g.over := by
  have hself : ClimbEx.data.schedCons = [] := by decide +kernel
  exact C58_goes_on_partial ClimbEx.raw _ ClimbEx.describes_raw ClimbEx.data ClimbEx.build_raw ClimbEx.manageable.1 ClimbEx.manageable.2
    ClimbEx.ideal ClimbEx.trusted ClimbEx.eff (by decide +kernel) ClimbEx.prepared ClimbEx.prepare_ok (fun _ _ => rfl) (fun _ _ _ _ => rfl)
    g hg (by decide +kernel) (by decide +kernel) (by decide +kernel) (by rw [hself]; intro k hk; cases hk) (.inl (by decide +kernel))
    (by decide +kernel) ⟨_, _, climb_solution.1, climb_solution.2.1, climb_solution.2.2.1⟩

example := C61_objective ClimbEx.data (build_spec (by decide +kernel) ClimbEx.build_raw).choose_spec.choose_spec.wf _ _
  climb_solution.2.2.2 climb_solution.2.1 (fun x => ((x + 1 : Nat) : Int) ^ 3)

/-- The climb of `HillEx` ends at a local optimum. -/
example : ∃ sc, HillEx.prob.scoring.evaluate Ex.inp (.complete [some 0, some 1, some 1, some 0] Ex.asg) = .ok sc ∧
    LocallyBest HillEx.prob HillEx.env (fun _ => True) [some 0, some 1, some 1, some 0] sc := by
  obtain ⟨st', h, _⟩ := HillEx.climbs
  rcases C69_local_optimum HillEx.prob HillEx.env Ex.inp_wf (by decide) Ex.counter_lawful (fun _ => True) HillEx.shaped false
    (by intro h; cases h) HillEx.start st' trivial Ex.sch AsgEx.sch_shape _ h with e | ⟨s', a, sc, e1, _, e3, e4⟩
  · cases e
  · cases e1
    exact ⟨sc, e3, e4⟩

/-! ### C63, C64: the process of `ProcEx` -/

theorem given_text : GivenText ProcEx.sys ProcEx.opts.inputFiles "first\nsecond\n".toList :=
  .inr ⟨by decide, ["first".toList, "second".toList], by decide +kernel, by decide +kernel⟩

example := C63_delivered_timetable ProcEx.sys ProcEx.o Ex.counter_lawful ProcEx.parse ProcEx.opts ProcEx.files ProcEx.process.2.1 (by decide)

theorem delivered : Delivered (some "plan".toList) (some "\"Choice\", \"Slot\"\n\"Swimming\", \"Tuesday\"\n\"Chess\", \"Monday\"".toList)
    "\"Chooser\", \"Monday\", \"Tuesday\"\n\"Ann\", \"Chess\", \"Swimming\"\n\"Bob\", \"Chess\", \"Swimming\"".toList ProcEx.files := by
  unfold Delivered
  decide +kernel

example (before : Str → Option Str) : contentAfter before ProcEx.files "plan.scheduling.csv".toList =
    some "\"Choice\", \"Slot\"\n\"Swimming\", \"Tuesday\"\n\"Chess\", \"Monday\"".toList :=
  (C63_files before _ _ _ _ delivered).2.1

example := C63_standard_output (fun _ => none) (some "a".toList) "b".toList [.printed "a\n\n".toList, .printed "b\n\n".toList]
  (by unfold Delivered; decide +kernel)

/-- An input file that cannot be read. -/
def noFiles : Process.Sys := { ProcEx.sys with file := fun _ => none }
theorem noFiles_run : Process.Runs noFiles ProcEx.o ProcEx.parse ProcEx.opts 1 [] := by
  have h : Process.readInputString noFiles ProcEx.opts = .error (.error "cannot read input file") := by decide +kernel
  exact .unreadable h
example := C63_exit_other noFiles ProcEx.o Ex.counter_lawful ProcEx.parse ProcEx.opts 1 [] noFiles_run (by decide)

/-- The same process where everything can be printed too, with a backend that finds cheapest solutions. -/
def sys' : Process.Sys := { ProcEx.sys with canPrint := fun _ _ => true }
noncomputable def o' : Outside Unit Nat := { ProcEx.o with backend := fun _ => idealBackend }

theorem honest' : Honest [] ProcEx.script := by
  refine ⟨by simp [mentions], by simp, fun r => ?_⟩
  rcases r with _ | _
  · exact trivial
  · exact MainEx.honest

def raw' : Raw := match Reader.sync (outcome ProcEx.o.opt ProcEx.opts ProcEx.script).2.1.st with
  | .ok s => ⟨s.sets, s.choices, s.choosers, s.exprs⟩
  | .error _ => ⟨[], [], [], []⟩

theorem raw_same : raw' = MainEx.raw := by decide +kernel

theorem manageable' : AllManageable (outcome o'.opt ProcEx.opts ProcEx.script).1 := by
  intro r hr
  have hd : Describes (outcome ProcEx.o.opt ProcEx.opts ProcEx.script).1 raw' := by
    have h : (Reader.sync (outcome ProcEx.o.opt ProcEx.opts ProcEx.script).2.1.st).isOk = true := by decide +kernel
    unfold raw'
    cases e : Reader.sync (outcome ProcEx.o.opt ProcEx.opts ProcEx.script).2.1.st with
    | ok s => exact Reader.describes (outcome_made _ _) e
    | error f => rw [e] at h; cases h
  have := C55_at_most_one _ _ _ hr hd
  subst this
  rw [raw_same]
  exact MainEx.manageable _ MainEx.describes_raw

example (code : Nat) (effects : List Process.Effect) (h : Process.Runs sys' o' ProcEx.parse ProcEx.opts code effects) : code = 0 := by
  have hp : ProcEx.parse "first\nsecond\n".toList = ProcEx.script := if_pos rfl
  exact C63_accepted_exits_zero sys' o' rfl ProcEx.parse ProcEx.opts "first\nsecond\n".toList given_text (by rw [hp]; exact honest')
    (by rw [hp]; exact manageable') ProcEx.data (by rw [hp]; exact ProcEx.read_ok)
    (by
      have : ProcEx.data.nc = 2 := by decide +kernel
      rw [this]
      exact ⟨Ex.counter_lawful, MainEx.counter_varied, fun _ => ideal_sound⟩)
    (by
      rw [hp]
      have : 0 ≤ (effective ProcEx.o ProcEx.opts ProcEx.script).csTimeout := by decide +kernel
      exact this) (fun _ _ _ => rfl) (fun _ _ => rfl) code effects h

/-- A seed that is not a number: the clock is used. -/
example : (Process.seedOf { ProcEx.sys with seedVar := some "x1".toList }).toNat = 1234 :=
  C63_seed_from_clock _ (by decide) (by
    intro s hs ds h
    cases hs
    rcases h with h | h
    · subst h
      exact .inr (.inl ⟨'x', by decide, by unfold IsDigit; decide⟩)
    · cases h)

example (nanos : Nat) (code : Nat) (effects : List Process.Effect)
    (h : Process.RunsVia calmly { ProcEx.sys with nanos := nanos } ProcEx.o ProcEx.parse ProcEx.opts code effects) : 0 = code ∧ ProcEx.files = effects :=
  have r := ProcEx.reproducible_hyps
  C64_reproducible ProcEx.sys nanos ProcEx.o ProcEx.parse ProcEx.opts "7".toList r.2.1 r.2.2.1 r.2.2.2.1 r.1
    (fun text _ _ => .inl (r.2.2.2.2 text)) 0 code ProcEx.files effects ProcEx.process.2.2 h

/-! ### C65 -/

example := C65_session_ends_after_deadline DeadlineEx.cfg DeadlineEx.mid DeadlineEx.mid 0 DeadlineEx.overdue (.zero _)

example (n : Nat) (g' : Session Nat Unit Nat) (h : LateMoves DeadlineEx.cfg n DeadlineEx.mid g') : n ≤ 4 := by
  have := (C65_session_ends_after_deadline DeadlineEx.cfg DeadlineEx.mid g' n DeadlineEx.overdue h).1
  have hl : DeadlineEx.mid.workers.length = 2 := by decide +kernel
  omega

example (tid : Nat) (w : Worker Nat Unit Nat) (hw : DeadlineEx.mid.workers[tid]? = some w) :=
  C65_assignments_before_deadline DeadlineEx.cfg (fun _ => rfl) DeadlineEx.mid (ThEx.exec_run _ _ _) tid w hw

example (tid : Nat) (w : Worker Nat ASolver (Nat × Nat)) (hw : MainEx.final.workers[tid]? = some w) :=
  C65_lps_before_deadline MainEx.outside MainEx.prepared (Reader.effectiveOptions MainEx.read.2) MainEx.final (ThEx.exec_run _ _ _) tid w hw

example := C65_no_lp_after_deadline AsgEx.prob ⟨idealBackend, fun _ => true⟩ .new Ex.sch (fun _ _ => rfl)

example (r : Option Scheduling × Nat) (h : Search.nextScheduling Ex.counter Ex.inp 0 (fun _ => []) (fun _ _ => true) 1 = .ok r) : r.1 = none :=
  C65_no_search_after_deadline Ex.counter Ex.inp 0 (fun _ => []) (fun _ _ => true) 1 Ex.counter_lawful (by decide) (fun _ _ _ => rfl) r h

example (st' : HState Nat Unit) (sol : Solution)
    (h : Hill.solve HillEx.prob { HillEx.env with late := fun _ => true } true HillEx.start Ex.sch = .ok (sol, st')) : st'.count = HillEx.start.count + 1 :=
  C65_no_climbing_after_deadline HillEx.prob { HillEx.env with late := fun _ => true } HillEx.start st' Ex.sch sol (fun _ _ => rfl) h
example : (Hill.solve HillEx.prob { HillEx.env with late := fun _ => true } true HillEx.start Ex.sch).isOk = true := by decide +kernel

/-! ### C66, C67 -/

example := C66_pieces (fun _ _ => true) (fun _ _ => rfl) [[97], [], [10, 98], [99, 10, 10], [100]]
example := C66_flushed (fun _ _ => true) (fun _ _ => rfl) [[[97], [10, 98]], [], [[99]]]
example := C66_messages (fun _ _ => true) (fun _ _ => rfl) [[97], [98, 10, 99], []]
example : (([[97], [98]] : List (List UInt8)).foldl (Status.emit (fun _ l => l != [97])) ⟨[], []⟩).printed.Sublist [[97], [98]] :=
  C66_failures _ [[97], [98]] [[97], [98]] ⟨rfl, by decide⟩
example := C67_remaining 5 (by decide) [1200000, 4999999999, 7000000000]

deriving instance DecidableEq for Wassign.Event

/-- The events of the four workers of `MainEx`, in two polls. -/
def evs4 : List Wassign.Event := MainEx.final.workers.flatMap (fun w => w.st.hill.events)

theorem main_fine : ∀ w ∈ MainEx.final.workers, w.phase ≠ .panicked := by
  intro w hw
  have h := List.mem_map_of_mem (f := fun w => (w.phase, w.started, w.st.progress.iterations)) hw
  rw [MainEx.final_phases] at h
  simp at h
  rw [h.1]; simp

theorem main_polled : ∀ (tid : Nat) (w : Worker Nat ASolver (Nat × Nat)), MainEx.final.workers[tid]? = some w →
    ([evs4.take 3].flatten ++ evs4.drop 3).filter (fun e => decide (e.worker = tid)) = w.st.hill.events := by
  have hsplit : [evs4.take 3].flatten ++ evs4.drop 3 = evs4 := by simp
  rw [hsplit]
  have h : ∀ tid ∈ List.range 4, (MainEx.final.workers[tid]?.map (fun w => decide (evs4.filter (fun e => decide (e.worker = tid)) = w.st.hill.events))) = some true := by
    decide +kernel
  intro tid w hw
  have hlen : MainEx.final.workers.length = 4 := by decide +kernel
  have hlt : tid < 4 := by rw [← hlen]; exact (List.getElem?_eq_some_iff.1 hw).1
  have := h tid (List.mem_range.2 hlt)
  rw [hw] at this
  exact of_decide_eq_true (Option.some.inj this)

example : ∃ sol summary, Status.track MainEx.cfg MainEx.final [evs4.take 3] (evs4.drop 3) = .ok (sol, summary) ∧ Threaded.wait MainEx.final = .ok sol := by
  obtain ⟨raw, hd, hb⟩ := C55_input_as_described _ _ _ MainEx.read_ok
  obtain ⟨sol, summary, h1, h2, _⟩ := C67_program_summary MainEx.outside hd hb Ex.counter_lawful MainEx.prepare_ok MainEx.final
    (ThEx.exec_run _ _ _) main_fine [evs4.take 3] (evs4.drop 3) main_polled
  exact ⟨sol, summary, h1, h2⟩

/-! ### C85 -/

example : ∃ sol summary, Status.track MainEx.cfg MainEx.final [evs4.take 3] (evs4.drop 3) = .ok (sol, summary) := by
  obtain ⟨raw, hd, hb⟩ := C55_input_as_described _ _ _ MainEx.read_ok
  obtain ⟨sol, summary, h1, _⟩ := C85_summary MainEx.outside hd hb Ex.counter_lawful MainEx.prepare_ok MainEx.final
    (ThEx.exec_run _ _ _) main_fine [evs4.take 3] (evs4.drop 3) main_polled
  exact ⟨sol, summary, h1⟩

example (tid : Nat) (w : Worker Nat ASolver (Nat × Nat)) (hw : MainEx.final.workers[tid]? = some w) :=
  C85_programs_per_worker MainEx.outside MainEx.prepared (Reader.effectiveOptions MainEx.read.2) MainEx.final (ThEx.exec_run _ _ _) tid w hw

example (tid : Nat) (w : Worker Nat ASolver (Nat × Nat)) (hw : MainEx.final.workers[tid]? = some w) :=
  C85_assignments_per_worker MainEx.cfg (fun _ => ⟨rfl, rfl⟩) MainEx.final (ThEx.exec_run _ _ _) tid w hw

/-- Every worker has done one iteration with thirteen assignments, and would have been allowed two programs for each. -/
example : MainEx.final.workers.map (fun w => (w.st.progress.iterations, w.st.hill.count)) = [(1, 13), (1, 13), (1, 13), (1, 13)] ∧
    perScheduling MainEx.prepared (Reader.effectiveOptions MainEx.read.2) = 2 := by decide +kernel

example : ∃ a sv', Asg.solveUntil AsgEx.prob AsgEx.env false ASolver.new Ex.sch = .ok (some a, sv') ∧ sv'.lpCount ≤ 3 := by
  obtain ⟨a, sv', h, _⟩ := AsgEx.solved
  exact ⟨a, sv', h, Nat.le_trans (C85_programs_per_scheduling _ _ _ _ h) (by decide +kernel)⟩

example (st' : HState Nat Unit) (sol : Solution) (h : Hill.solve HillEx.prob HillEx.env false HillEx.start Ex.sch = .ok (sol, st')) :=
  C85_assignments_per_climb HillEx.prob HillEx.env false HillEx.start st' Ex.sch sol h

/-- A worker that has panicked. -/
def broken : Session Nat Unit Nat := { ThEx.final false with
  workers := (ThEx.final false).workers.map (fun w => { w with phase := .panicked }) }
example : Status.track (ThEx.cfg false) broken [] [] = .error (.error "WorkerPanic") := by
  refine C67_panic (ThEx.cfg false) broken [] [] ?_
  have h : broken.workers.length = 2 := by decide +kernel
  match hw : broken.workers, h with
  | w :: _, _ =>
    have hm : w ∈ broken.workers := by rw [hw]; simp
    obtain ⟨v, _, rfl⟩ := List.mem_map.1 hm
    exact ⟨_, List.mem_cons_self, rfl⟩

/-! ### C68: `StatedEx.script` with an end -/

namespace Stated4
open ReadEx StatedEx Reader

/-- `let a = +slot("Monday"); let b = +slot("Tuesday"); let c = +choice("Chess", parts(2)); +chooser("Ann", [1]); +(c.slot(2) == b)` -/
def script : Script :=
  given (.slot "Monday".toList) fun a => then' (.add .slot a) <|
  given (.slot "Tuesday".toList) fun b => then' (.add .slot b) <|
  given (.choice "Chess".toList [tagInt .parts 2]) fun c => then' (.add .choice c) <|
  given (.chooser "Ann".toList [.int 1]) fun p => then' (.add .chooser p) <|
  property (.attr .choice c (.slotPart 1)) fun x => made (.relate "==" (.acc x) (.obj .slot b)) fun e => then' (.addExpr e) .done

def read := readInput MainEx.outside.opt (new opts) script
def data : InputData := match read.1 with
  | .ok d => d
  | .error _ => default
def prepared : Prepared := match prepare MainEx.outside data (effectiveOptions read.2) with
  | .ok p => p
  | .error _ => MainEx.prepared
def cfg := setup MainEx.outside prepared (effectiveOptions read.2)
def final := ThEx.exec cfg ([0, 1, 2, 3, 3, 2, 1, 0, 0, 1, 2, 3, 0, 1, 2, 3, 0, 1, 2, 3, 0, 1, 2, 3]) (start cfg)

theorem run : ∃ sched asg, TryRun MainEx.outside opts script (.ok (.tables sched asg)) := by
  obtain ⟨d, hd⟩ := ok_of_isOk (x := read.1) (by decide +kernel)
  have h1 : read.1 = .ok data := by unfold data; rw [hd]
  obtain ⟨p, hp⟩ := ok_of_isOk (x := prepare MainEx.outside data (effectiveOptions read.2)) (by decide +kernel)
  have h2 : prepare MainEx.outside data (effectiveOptions read.2) = .ok prepared := by unfold prepared; rw [hp]
  have hph : final.workers.map (fun w => w.phase) = [.finished, .finished, .finished, .finished] := by decide +kernel
  have ho : final.over := by
    intro w hw
    have h := List.mem_map_of_mem (f := fun w : Worker Nat ASolver (Nat × Nat) => w.phase) hw
    rw [hph] at h
    simp at h
    exact .inl h
  have hr : (match report prepared final with
      | .ok (.tables _ _) => true
      | _ => false) = true := by decide +kernel
  have h : TryRun MainEx.outside opts script (report prepared final) := .solved h1 h2 (ThEx.exec_run cfg _ _) ho
  cases e : report prepared final with
  | error f => rw [e] at hr; cases hr
  | ok r =>
    cases r with
    | tables x y => rw [e] at h; exact ⟨x, y, h⟩
    | noSolution => rw [e] at hr; cases hr

example : ∃ sched asg, TryRun MainEx.outside opts script (.ok (.tables sched asg)) ∧
    ∃ raw d s a, Describes (outcome MainEx.outside.opt opts script).1 raw ∧ build raw = .ok d ∧ Answer raw d s a := by
  obtain ⟨sched, asg, h⟩ := run
  obtain ⟨raw, d, s, a, h1, h2, h3, _⟩ := C68_printed_timetable_partial MainEx.outside Ex.counter_lawful opts script sched asg h
    (fromInterface_of_check (by decide +kernel)) (noRename_of_none (by decide +kernel))
  exact ⟨sched, asg, h, raw, d, s, a, h1, h2, h3⟩

end Stated4

/-! ### C71 -/

example := C71_most_constrained_first Ex.rng Ex.rng_lawful OrderEx.inp 0
example := C71_decided_in_order Ex.rng Ex.rng_lawful OrderEx.inp OrderEx.wf OrderEx.sizes OrderEx.ready [] (by decide) 0 OrderEx.suf
  (OrderEx.after 4) ⟨by decide +kernel, OrderEx.reach 4 (by omega)⟩ 2 (by decide)

/-! ### C73, C74 -/

example := C73_number DisplayEx.even 5 0x40080000#32 (by decide +kernel)

/-- The two solutions of `ObjectiveEx`: the better one does not have the greater numbers. -/
example (x x' : Score) (hx : ObjectiveEx.prepared.scoring.evaluate ObjectiveEx.data (.complete ObjectiveEx.sch ObjectiveEx.better) = .ok x)
    (hx' : ObjectiveEx.prepared.scoring.evaluate ObjectiveEx.data (.complete ObjectiveEx.sch ObjectiveEx.cheaper) = .ok x')
    (hle : Score.lt x' x = false) :=
  C73_order DisplayEx.even ObjectiveEx.raw _ ObjectiveEx.describes_raw ObjectiveEx.data ObjectiveEx.build_raw ObjectiveEx.manageable.1
    ObjectiveEx.manageable.2 ObjectiveEx.ideal ObjectiveEx.eff ObjectiveEx.prepared ObjectiveEx.prepare_ok ObjectiveEx.moderate
    (by
      have h3 : ObjectiveEx.data.maxPref = 3 := by decide +kernel
      rw [h3]
      unfold WholePowers
      decide +kernel)
    ObjectiveEx.sch ObjectiveEx.sch ObjectiveEx.better ObjectiveEx.cheaper ObjectiveEx.sch_shape ObjectiveEx.better_shape
    ObjectiveEx.better_valid ObjectiveEx.sch_shape ObjectiveEx.cheaper_shape ObjectiveEx.cheaper_valid x x' hx hx' hle
example : (match ObjectiveEx.prepared.scoring.evaluate ObjectiveEx.data (.complete ObjectiveEx.sch ObjectiveEx.better),
    ObjectiveEx.prepared.scoring.evaluate ObjectiveEx.data (.complete ObjectiveEx.sch ObjectiveEx.cheaper) with
    | .ok x, .ok x' => !Score.lt x' x
    | _, _ => false) = true := by decide +kernel

example : describedChoice "Foo".toList ([.parts 3] ++ .bounds 5 12 :: [.optional]) = describedChoice "Foo".toList ([.parts 3] ++ .min 5 :: .max 12 :: [.optional]) :=
  C74_bounds_is_min_max _ _ _ _ _
example : describedChoice "Foo".toList ([.max 4] ++ .bounds 5 12 :: .parts 3 :: []) = describedChoice "Foo".toList ([.max 4] ++ .parts 3 :: .bounds 5 12 :: []) :=
  C74_order_irrelevant _ _ _ _ _ (by decide)

/-- A new choice after the ones of `ReadEx.script`. -/
example := C74_choice_means_its_arguments (env := ReadEx.env) ReadEx.opts ReadEx.script "Foo".toList ArgsEx.args _ ArgsEx.written (by
  have h : ∀ m ∈ namesOf (outcome ReadEx.env ReadEx.opts ReadEx.script).2.1.st .choice, ('F' ∈ m) = false := by decide +kernel
  intro m hm ho
  have := h m hm
  obtain ⟨x, y, rfl⟩ := ho
  simp at this)

end Wassign.Instances
