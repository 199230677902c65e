import Verif.Proofs.Rename
import Verif.Props.Main
/-
C81: names do not matter for the timetable.
-/
namespace Wassign
open Spec Main Threaded
variable {F σ : Type}

/-- The two prepared problems differ in the names of the input only. -/
structure PreparedAlike (p p' : Prepared) : Prop where
  input : p.input.bare = p'.input.bare
  analysis : p.analysis = p'.analysis
  static : p.static = p'.static
  scoring : p.scoring = p'.scoring

theorem SameButNames.symm {d d' : InputData} (h : SameButNames d d') : SameButNames d' d :=
  ⟨h.1.symm, h.2.symm, h.3.symm, h.4.symm, h.5.symm, h.6.symm, h.7.symm, h.8.symm, h.9.symm, h.10.symm⟩

theorem ns_of_bare {d d' : InputData} (h : d.bare = d'.bare) : d.ns = d'.ns := by
  rw [← bare_ns d, ← bare_ns d', h]

theorem prepare_alike {o : Outside F σ} {d d' : InputData} (h : d.bare = d'.bare) (opts : Opts F) :
    (∀ f, prepare o d opts = .error f → prepare o d' opts = .error f) ∧
    (∀ p, prepare o d opts = .ok p → ∃ p', prepare o d' opts = .ok p' ∧ p.input = d ∧ p'.input = d' ∧ PreparedAlike p p') := by
  have hns := ns_of_bare h
  have ha : ∀ a s, Analysis.new d a s = Analysis.new d' a s := fun a s => by rw [← bare_analysis d, ← bare_analysis d', h]
  have hs : StaticData.new d = StaticData.new d' := by rw [← bare_static d, ← bare_static d', h]
  have hm : d.maxPref = d'.maxPref := by rw [← bare_maxPref d, ← bare_maxPref d', h]
  have hsc : newScoring o d opts = newScoring o d' opts := by unfold newScoring; rw [hm]
  unfold prepare
  simp only [ha, hs, hns, hsc]
  cases Analysis.new d' (!opts.noCs && !opts.greedy && decide (1 < d'.ns))
      ((!opts.noCs && !opts.greedy && decide (1 < d'.ns)) && !opts.noCsSimp) with
  | error f => exact ⟨fun f h => h, fun p h => by cases h⟩
  | ok A =>
    cases StaticData.new d' with
    | error f => exact ⟨fun f h => h, fun p h => by cases h⟩
    | ok S =>
      refine ⟨fun f h => (by cases h), fun p hp => ?_⟩
      cases hp
      exact ⟨_, rfl, rfl, rfl, h, rfl, rfl, rfl⟩

/-- The same setup but for the names in the problem. -/
structure SetupAlike {τ ρ : Type} (c c' : Setup σ τ ρ) : Prop where
  problem : c.problem.bare = c'.problem.bare
  any : c.any = c'.any
  threads : c.threads = c'.threads
  env : c.env = c'.env
  init : c.init = c'.init

theorem SetupAlike.symm {τ ρ : Type} {c c' : Setup σ τ ρ} (h : SetupAlike c c') : SetupAlike c' c :=
  ⟨h.1.symm, h.2.symm, h.3.symm, h.4.symm, h.5.symm⟩

theorem setup_alike {o : Outside F σ} {p p' : Prepared} (h : PreparedAlike p p') (opts : Opts F) :
    SetupAlike (setup o p opts) (setup o p' opts) := by
  refine ⟨?_, rfl, rfl, ?_, rfl⟩
  · show HProblem.mk p.input.bare p.scoring opts.maxNeighbors = HProblem.mk p'.input.bare p'.scoring opts.maxNeighbors
    rw [h.input, h.scoring]
  · have h1 : Asg.solveUntil (asgProblem o p opts) = Asg.solveUntil (asgProblem o p' opts) := by
      rw [← Asg.bare_solveUntil (asgProblem o p opts), ← Asg.bare_solveUntil (asgProblem o p' opts)]
      congr 1
      unfold AProblem.bare asgProblem
      simp only [h.input, h.analysis, h.static]
    have h2 : source o.rng p.input = source o.rng p'.input := by
      rw [← bare_source o.rng p.input, ← bare_source o.rng p'.input, h.input]
    funext tid
    simp only [setup, h1, h2, h.analysis]

theorem input_alike {τ ρ : Type} {c c' : Setup σ τ ρ} (h : SetupAlike c c') : c.problem.input.bare = c'.problem.input.bare := by
  have := h.problem
  unfold HProblem.bare at this
  exact congrArg HProblem.input this

theorem move_alike {τ ρ : Type} {c c' : Setup σ τ ρ} (h : SetupAlike c c') {g g' : Session σ τ ρ} (hm : Move c g g') : Move c' g g' := by
  have hns := ns_of_bare (input_alike h)
  cases hm with
  | check tid w late h1 h2 => exact .check g tid w late h1 h2
  | run tid w h1 h2 =>
    have e : runStep c tid w = runStep c' tid w := by
      unfold runStep
      rw [← Shotgun.bare_iterate c.problem, ← Shotgun.bare_iterate c'.problem, h.problem, h.env]
    rw [e]
    exact .run g tid w h1 h2
  | test tid k w h1 h2 =>
    have e : testStep c tid k w = testStep c' tid k w := by
      unfold testStep
      rw [h.any, h.env, hns]
    rw [e]
    exact .test g tid k w h1 h2

theorem run_alike {τ ρ : Type} {c c' : Setup σ τ ρ} (h : SetupAlike c c') {g g' : Session σ τ ρ} (hr : Run c g g') : Run c' g g' := by
  induction hr with
  | refl => exact .refl _
  | step _ hs ih =>
    refine .step ih ?_
    cases hs with
    | cancel => exact .cancel _
    | move hm => exact .move (move_alike h hm)

theorem start_alike {τ ρ : Type} {c c' : Setup σ τ ρ} (h : SetupAlike c c') : start c = start c' := by
  unfold start workerCount
  rw [h.threads, h.init, ns_of_bare (input_alike h)]

/-- **C81**, solver sessions: if two inputs say the same about everything but names, then the preparation fails for both (in the same way)
or for neither, and the solver sessions are the same, move by move: same starts, same reachable states (so same random draws, same
candidate solutions, same scores and counters), hence same results. -/
theorem C81_same_sessions (o : Outside F σ) (opts : Opts F) (d d' : InputData) (h : SameButNames d d') :
    (∀ f, prepare o d opts = .error f ↔ prepare o d' opts = .error f) ∧
    (∀ p, prepare o d opts = .ok p → ∃ p', prepare o d' opts = .ok p' ∧
      start (setup o p opts) = start (setup o p' opts) ∧
      (∀ g g', Run (setup o p opts) g g' ↔ Run (setup o p' opts) g g') ∧
      ∀ sol, p.scoring.evaluate p.input sol = p'.scoring.evaluate p'.input sol) := by
  have hb := bare_eq h
  refine ⟨fun f => ⟨(prepare_alike hb opts).1 f, (prepare_alike hb.symm opts).1 f⟩, fun p hp => ?_⟩
  obtain ⟨p', hp', _, _, ha⟩ := (prepare_alike hb opts).2 p hp
  have hs := setup_alike (o := o) ha opts
  refine ⟨p', hp', start_alike hs, fun g g' => ⟨run_alike hs, run_alike hs.symm⟩, fun sol => ?_⟩
  rw [← bare_evaluate p.scoring p.input, ← bare_evaluate p'.scoring p'.input, ha.input, ha.scoring]

theorem report_complete {p : Prepared} {g : Session σ ASolver (σ × Nat)} {s : Scheduling} {a : Assignment}
    (hw : wait g = .ok (.complete s a)) (h : report p g = .ok .noSolution) : False := by
  unfold report at h
  rw [hw] at h
  simp only [R.bind_ok, Solution.isInvalid, Bool.false_eq_true, if_false] at h
  obtain ⟨_, _, h⟩ := R.bind_eq_ok.1 h
  split at h
  all_goals
    obtain ⟨_, _, h⟩ := R.bind_eq_ok.1 h
    obtain ⟨_, _, h⟩ := R.bind_eq_ok.1 h
    cases h

/-- The tables of one timetable under the names of `d`. -/
def TablesOf (d : InputData) (s : Scheduling) (a : Assignment) (sched : Option Str) (asg : Str) : Prop :=
  (∃ table, asg = csv table ∧ AssignmentTable d s a table) ∧
  (if 1 < d.ns then ∃ table, sched = some (csv table) ∧ SchedulingTable d s table else sched = none)

theorem names_one_way (o : Outside F σ) (hrng : o.rng.Lawful) (opts : Opts F) (script script' : Reader.Script) (d d' : InputData)
    (h1 : (Reader.readInput o.opt (Reader.new opts) script).1 = .ok d)
    (h2 : (Reader.readInput o.opt (Reader.new opts) script').1 = .ok d')
    (hopt : Reader.effectiveOptions (Reader.readInput o.opt (Reader.new opts) script).2 =
      Reader.effectiveOptions (Reader.readInput o.opt (Reader.new opts) script').2)
    (hb : d.bare = d'.bare) (r : R Output) (h : TryRun o opts script r) :
    (∃ f, r = .error f ∧ TryRun o opts script' (.error f)) ∨
    (r = .ok .noSolution ∧ TryRun o opts script' (.ok .noSolution)) ∨
    ∃ s a sched asg sched' asg', r = .ok (.tables sched asg) ∧ TryRun o opts script' (.ok (.tables sched' asg')) ∧
      Valid d s a ∧ Valid d' s a ∧ TablesOf d s a sched asg ∧ TablesOf d' s a sched' asg' := by
  cases h with
  | rejected h => rw [h1] at h; cases h
  | @unprepared e f he hp =>
    rw [h1] at he; cases he
    refine .inl ⟨f, rfl, .unprepared h2 ?_⟩
    rw [← hopt]
    exact (prepare_alike hb _).1 f hp
  | @solved e p g he hp hr ho =>
    rw [h1] at he; cases he
    obtain ⟨p', hp', ep, ep', ha⟩ := (prepare_alike hb _).2 p hp
    have hs := setup_alike (o := o) ha (Reader.effectiveOptions (Reader.readInput o.opt (Reader.new opts) script).2)
    have hr' := run_alike hs hr
    rw [start_alike hs] at hr'
    rw [hopt] at hp' hr'
    have ht' : TryRun o opts script' (report p' g) := .solved h2 hp' hr' ho
    by_cases hok : ∀ w ∈ g.workers, w.phase ≠ .panicked
    · obtain ⟨raw, hd, hbd⟩ := C55_input_as_described _ _ _ h1
      obtain ⟨raw', hd', hbd'⟩ := C55_input_as_described _ _ _ h2
      rcases report_ok hd hbd hrng hp hr hok with ⟨e, hn⟩ | ⟨s, a, x, sd, hw, e, _, hv, _, ht, hst⟩ <;>
        rcases report_ok hd' hbd' hrng hp' hr' hok with ⟨e', hn'⟩ | ⟨s', a', x', sd', hw', e', _, hv', _, hta, hsta⟩
      · exact .inr (.inl ⟨e, e' ▸ ht'⟩)
      · exfalso
        exact report_complete hw' e
      · exfalso
        exact report_complete hw e'
      · rw [hw] at hw'
        cases hw'
        exact .inr (.inr ⟨s, a, sd, x, sd', x', e, e' ▸ ht', hv, hv', ⟨ht, hst⟩, hta, hsta⟩)
    · have : ∃ w ∈ g.workers, w.phase = .panicked := by
        by_contra hn
        exact hok fun w hw hp => hn ⟨w, hw, hp⟩
      have hw := C21_panic_reported g this
      refine .inl ⟨.error "WorkerPanic", ?_, ?_⟩
      · unfold report; rw [hw]; rfl
      · have e : report p' g = .error (.error "WorkerPanic") := by unfold report; rw [hw]; rfl
        exact e ▸ ht'

/-- **C81**: names do not matter. Take two scripts that the reader turns into inputs with the same slots, choices, choosers, preferences and
constraints but for the names, with the same options. Whatever the first program run can end with, the second can end with too: the same error,
"No solution found.", or the tables of the same timetable, written with its own names. (And vice versa, by symmetry.) -/
theorem C81_names_do_not_matter (o : Outside F σ) (hrng : o.rng.Lawful) (opts : Opts F) (script script' : Reader.Script) (d d' : InputData)
    (h1 : (Reader.readInput o.opt (Reader.new opts) script).1 = .ok d)
    (h2 : (Reader.readInput o.opt (Reader.new opts) script').1 = .ok d')
    (hopt : Reader.effectiveOptions (Reader.readInput o.opt (Reader.new opts) script).2 =
      Reader.effectiveOptions (Reader.readInput o.opt (Reader.new opts) script').2)
    (hb : SameButNames d d') :
    (∀ f, TryRun o opts script (.error f) ↔ TryRun o opts script' (.error f)) ∧
    (TryRun o opts script (.ok .noSolution) ↔ TryRun o opts script' (.ok .noSolution)) ∧
    ∀ sched asg, TryRun o opts script (.ok (.tables sched asg)) → ∃ s a sched' asg',
      TryRun o opts script' (.ok (.tables sched' asg')) ∧ Valid d s a ∧ Valid d' s a ∧
      TablesOf d s a sched asg ∧ TablesOf d' s a sched' asg' := by
  have e := bare_eq hb
  have fwd := names_one_way o hrng opts script script' d d' h1 h2 hopt e
  have bwd := names_one_way o hrng opts script' script d' d h2 h1 hopt.symm e.symm
  refine ⟨fun f => ⟨fun h => ?_, fun h => ?_⟩, ⟨fun h => ?_, fun h => ?_⟩, fun sched asg h => ?_⟩
  · rcases fwd _ h with ⟨f', e, h'⟩ | ⟨e, _⟩ | ⟨_, _, _, _, _, _, e, _⟩ <;> cases e
    exact h'
  · rcases bwd _ h with ⟨f', e, h'⟩ | ⟨e, _⟩ | ⟨_, _, _, _, _, _, e, _⟩ <;> cases e
    exact h'
  · rcases fwd _ h with ⟨f', e, h'⟩ | ⟨e, h'⟩ | ⟨_, _, _, _, _, _, e, _⟩ <;> cases e
    exact h'
  · rcases bwd _ h with ⟨f', e, h'⟩ | ⟨e, h'⟩ | ⟨_, _, _, _, _, _, e, _⟩ <;> cases e
    exact h'
  · rcases fwd _ h with ⟨f', e, h'⟩ | ⟨e, h'⟩ | ⟨s, a, _, _, sched', asg', e, h', v, v', t, t'⟩ <;> cases e
    exact ⟨s, a, sched', asg', h', v, v', t, t'⟩

/-! ### A concrete case -/
namespace RenameEx
open Reader ReadEx

/-- `MainEx.script` with other names (even the order of the names is turned round). -/
def script : Script :=
  given (.slot "Zwei".toList) fun s => then' (.add .slot s) <|
  given (.slot "Eins".toList) fun t => then' (.add .slot t) <|
  given (.choice "Yoga".toList [tagInt .max 2]) fun a => then' (.add .choice a) <|
  given (.choice "Zoo, \"with lunch\"".toList [tagInt .max 2]) fun b => then' (.add .choice b) <|
  given (.chooser "Q".toList [.int 1, .str "2".toList]) fun p => then' (.add .chooser p) <|
  given (.chooser "P".toList [.int 2, .int 1]) fun q => then' (.add .chooser q) <|
  then' (.addExpr ⟨⟨.choice, .slot, "Yoga".toList, 0⟩, .eq, ⟨.slot, .notSet, "Eins".toList, 0⟩⟩) .done

def read := readInput MainEx.outside.opt (new opts) script
def data : InputData := match read.1 with
  | .ok d => d
  | .error _ => default

theorem read_ok : read.1 = .ok data := by
  have h : read.1.isOk = true := by decide +kernel
  unfold data
  cases e : read.1 with
  | ok d => rfl
  | error f => rw [e] at h; cases h

/-- The reader's results are really different, but the same up to the names. -/
theorem same : SameButNames MainEx.data data ∧ MainEx.data ≠ data :=
  ⟨⟨by decide +kernel, by decide +kernel, by decide +kernel, by decide +kernel, by decide +kernel, by decide +kernel, by decide +kernel,
    by decide +kernel, by decide +kernel, by decide +kernel⟩, by decide +kernel⟩

/-- The run of `MainEx.printed` with the new names. -/
theorem renamed : ∃ sched asg, TryRun MainEx.outside opts script (.ok (.tables sched asg)) := by
  obtain ⟨_, _, _, _, h, _⟩ := (C81_names_do_not_matter MainEx.outside MainEx.printed.1 opts MainEx.script script _ _ MainEx.read_ok read_ok rfl same.1).2.2 _ _
    MainEx.printed.2
  exact ⟨_, _, h⟩

end RenameEx
end Wassign
