import Verif.Model.Main
import Verif.Spec.Answer
import Verif.Props.Threaded
import Verif.Props.Made
import Verif.Props.Output
import Verif.Props.Expr
/-
C52: the whole program.
-/
namespace Wassign
open Spec Build Main Threaded

theorem continues_of_built {raw : Raw} {d : InputData} {m : Nat} {written : List Constraint} (hb : Built raw d m written) :
    Continues d := by
  intro c hc n hn
  obtain ⟨j, hj⟩ := List.mem_iff_getElem?.1 hc
  obtain ⟨ch, ch1, e1, e2, _, e4, _⟩ := hb.choice j (List.getElem?_eq_some_iff.1 hj).1
  rw [hj] at e1
  cases e1
  rw [e4] at hn
  obtain ⟨k, i, _, hp2⟩ := blocks_link.1 ⟨ch1, e2, hn⟩
  show n < d.nc
  rw [hb.nc]
  exact isPart_lt hp2

/-- A valid solution of the data made from an input, with all choices that are not optional, is an answer to the input. -/
theorem answer_of_valid {raw : Raw} {d : InputData} (hmax : ∀ p ∈ raw.choices, p.max ≤ u32Max) (h : build raw = .ok d)
    {s : Scheduling} {a : Assignment} (hs : SchedShape d s) (hv : Valid d s a) (hp : Placed d s) :
    Answer raw d s a ∧ Fulfils raw d s a := by
  obtain ⟨m, written, hb⟩ := build_spec hmax h
  obtain ⟨_, _, _, _, hch, _⟩ := C48_well_formed raw d hmax h
  have hcomp : ∀ e ∈ raw.exprs, ∃ L, buildExpr d e = .ok L ∧ ∀ c ∈ L, WrittenWF d c ∧ Holds d s a c := by
    intro e he
    obtain ⟨L, hL⟩ := hb.compiled e he
    exact ⟨L, hL, fun c hc => C48_written_enforced raw d hmax h s a hv c (.expr he hL hc)⟩
  refine ⟨⟨hv.onePerSlot, hv.onlyScheduled, ?_, ?_, ?_, ?_, hcomp⟩, ?_⟩
  · intro k j c p hpk hpart hopt
    obtain ⟨ch, e1, e2, _⟩ := hch k j c p hpart hpk
    obtain ⟨hlt, he⟩ := List.getElem?_eq_some_iff.1 e1
    have := hp c hlt (by rw [he, e2]; exact hopt)
    cases ht : slotAt s c with
    | none => exact absurd ht this
    | some t => exact ⟨t, hs.range c t ht, rfl⟩
  · intro k j c p hpk hpart hsl
    obtain ⟨ch, e1, _⟩ := hch k j c p hpart hpk
    obtain ⟨hlt, he⟩ := List.getElem?_eq_some_iff.1 e1
    obtain ⟨h1, h2⟩ := hv.bounds c hlt hsl
    rw [he] at h1 h2
    obtain ⟨l1, l2⟩ := (C29_shared_limits raw d hmax h c ch e1).1 k j c p hpart hpk (.refl c)
    omega
  · intro k p hpk
    obtain ⟨h1, _⟩ := C24_parts_consecutive raw d hmax h s a hv k p hpk
    rcases h1 with h1 | ⟨t, h1⟩
    · left
      rintro j c ⟨p', q1, q2, rfl⟩
      rw [hpk] at q1; cases q1
      exact h1 j q2
    · right
      refine ⟨t, ?_⟩
      rintro j c ⟨p', q1, q2, rfl⟩
      rw [hpk] at q1; cases q1
      exact h1 j q2
  · rintro k j j' c c' ⟨p, q1, q2, rfl⟩ ⟨p', q1', q2', rfl⟩ q hq
    rw [q1] at q1'; cases q1'
    obtain ⟨_, h2⟩ := C24_parts_consecutive raw d hmax h s a hv k p q1
    exact (h2 q hq j q2).trans (h2 q hq j' q2').symm
  · intro e he l r hsay hmir
    obtain ⟨L, hL, hall⟩ := hcomp e he
    refine (C30_meaning_partial (continues_of_built hb) hsay.left hsay.right hsay.written ?_ hL s a).1 (fun c hc => (hall c hc).2)
    intro hm
    obtain ⟨⟨n, hln⟩, hrel⟩ := hm
    rcases hmir n hln with e | e <;> rw [e] at hrel <;> simp at hrel

variable {F σ : Type} {o : Outside F σ} {opts : Opts F} {script : Reader.Script}

/-- The workers the program starts are as the theorems about sessions ask. -/
theorem setup_wf {raw : Raw} {tr : List Reader.Event} (hd : Describes tr raw) {d : InputData} (hbd : build raw = .ok d) (hrng : o.rng.Lawful)
    {p : Prepared} {eff : Opts F} (hp : prepare o d eff = .ok p) : p.input = d ∧
    SetupWF (setup o p eff) (fun _ => CacheShape d) (fun _ _ => True) := by
  have hmax := fun q hq => ((described_fit hd).1 q hq).2.1
  obtain ⟨m, written, hb⟩ := build_spec hmax hbd
  have hin : p.input = d := by
    unfold prepare at hp
    simp only [R.bind_eq_ok] at hp
    obtain ⟨an, _, st, _, hp⟩ := hp
    cases hp; rfl
  have hpref : d.maxPref ≤ u32Max := by
    rw [hb.maxPref]
    rcases hb.maxAttained with e | ⟨c, hc, hm⟩
    · rw [e]; exact Nat.zero_le _
    · exact (described_fit hd).2 c hc m hm
  subst hin
  refine ⟨rfl, ?_⟩
  exact
    { worker := fun tid _ => C20_real_worker (asgProblem o p eff) (asgEnv o tid) hb.wf hpref _ _ _ hrng _ _ _ _ _ _ _ _ _ _
      index := fun _ _ => rfl
      fresh := fun tid _ => ⟨_, _, _, rfl, cacheShape_new _, trivial⟩ }

/-- What `report` makes of a finished session without a panicked worker. -/
theorem report_ok {raw : Raw} {tr : List Reader.Event} (hd : Describes tr raw) {d : InputData} (hbd : build raw = .ok d) (hrng : o.rng.Lawful)
    {p : Prepared} {eff : Opts F} (hp : prepare o d eff = .ok p) {g : Session σ ASolver (σ × Nat)}
    (hr : Run (setup o p eff) (start (setup o p eff)) g) (hok : ∀ w ∈ g.workers, w.phase ≠ .panicked) :
    (report p g = .ok .noSolution ∧ ∀ w ∈ g.workers, w.st.progress.bestScore.isFinite = false) ∨
    ∃ s a x sched, wait g = .ok (.complete s a) ∧ report p g = .ok (.tables sched x) ∧ SchedShape d s ∧ Valid d s a ∧ Placed d s ∧
      (∃ table, x = csv table ∧ AssignmentTable d s a table) ∧
      (if 1 < d.ns then ∃ table, sched = some (csv table) ∧ SchedulingTable d s table else sched = none) := by
  have hmax := fun q hq => ((described_fit hd).1 q hq).2.1
  obtain ⟨m, written, hb⟩ := build_spec hmax hbd
  obtain ⟨hin, hS⟩ := setup_wf hd hbd hrng hp
  subst hin
  have hn : (setup o p eff).problem.input.nc ≤ u32Max := by
    have := hb.ncI32
    show p.input.nc ≤ u32Max
    unfold i32Max at this; unfold u32Max; omega
  obtain ⟨sol, hw, hiff, hsol⟩ := C21_invalid_iff _ _ _ hS g hr hn hok
  rcases hsol with rfl | ⟨s, a, rfl, hsh, hss, hv, hpl, sc, hsc, _⟩
  · left
    refine ⟨?_, hiff.1 rfl⟩
    unfold report
    rw [hw]; rfl
  · right
    have hsh : Shape p.input s a := hsh
    have hss : SchedShape p.input s := hss
    have hv : Valid p.input s a := hv
    obtain ⟨t1, w1, tt1⟩ := C41_scheduling_table p.input (.complete s a) s rfl hss
    obtain ⟨t2, w2, tt2⟩ := C40_valid_solution p.input s a hsh hv
    have hsc : p.scoring.evaluate p.input (.complete s a) = .ok sc := hsc
    refine ⟨s, a, csv t2, if 1 < p.input.ns then some (csv t1) else none, hw, ?_, hss, hv, hpl, ⟨t2, rfl, tt2⟩, ?_⟩
    · unfold report
      rw [hw]
      simp only [R.bind_ok, hsc, Solution.isInvalid, Bool.false_eq_true, if_false]
      split
      · rw [w1, R.bind_ok, R.pure_eq, R.bind_ok, w2]; rfl
      · rw [R.pure_eq, R.bind_ok, w2]; rfl
    · split
      · exact ⟨t1, rfl, tt1⟩
      · rfl

/-! ## C52 -/

/-- **C52**: for every script and every behaviour of the random engine, the clocks, the threads and the MIP backend: what
the program prints are the tables of a timetable that answers the input the script describes. -/
theorem C52_printed_timetable (o : Outside F σ) (hrng : o.rng.Lawful) (opts : Opts F) (script : Reader.Script)
    (sched : Option Str) (asg : Str) (h : TryRun o opts script (.ok (.tables sched asg))) :
    ∃ raw d s a, Describes (outcome o.opt opts script).1 raw ∧ build raw = .ok d ∧ Answer raw d s a ∧ Fulfils raw d s a ∧
      (∃ table, asg = csv table ∧ AssignmentTable d s a table) ∧
      (if 1 < d.ns then ∃ table, sched = some (csv table) ∧ SchedulingTable d s table else sched = none) := by
  generalize hres : (Except.ok (Output.tables sched asg) : R Output) = res at h
  cases h with
  | rejected => cases hres
  | unprepared => cases hres
  | @solved d p g h1 h2 h3 h4 =>
    obtain ⟨raw, hd, hb⟩ := C55_input_as_described _ _ _ h1
    have hok : ∀ w ∈ g.workers, w.phase ≠ .panicked := by
      intro w hw hph
      have := C21_panic_reported g ⟨w, hw, hph⟩
      unfold report at hres
      rw [this] at hres
      cases hres
    rcases report_ok hd hb hrng h2 h3 hok with ⟨e, _⟩ | ⟨s, a, x, sd, _, e, hss, hv, hpl, ht, hst⟩
    · rw [e] at hres; cases hres
    · rw [e] at hres
      cases hres
      have hmax := fun q hq => ((described_fit hd).1 q hq).2.1
      obtain ⟨a1, a2⟩ := answer_of_valid hmax hb hss hv hpl
      exact ⟨raw, d, s, a, hd, hb, a1, a2, ht, hst⟩

/-- **C52**: an accepted, prepared input whose workers do not panic always gets an answer: "No solution found." exactly if
no worker has found a solution with a finite score, otherwise the tables. Nothing else can go wrong. -/
theorem C52_no_other_outcome (o : Outside F σ) (hrng : o.rng.Lawful) (opts : Opts F) (script : Reader.Script) (d : InputData)
    (h1 : (Reader.readInput o.opt (Reader.new opts) script).1 = .ok d) (p : Prepared)
    (h2 : prepare o d (Reader.effectiveOptions (Reader.readInput o.opt (Reader.new opts) script).2) = .ok p)
    (g : Session σ ASolver (σ × Nat))
    (h3 : Run (setup o p (Reader.effectiveOptions (Reader.readInput o.opt (Reader.new opts) script).2))
      (start (setup o p (Reader.effectiveOptions (Reader.readInput o.opt (Reader.new opts) script).2))) g)
    (hok : ∀ w ∈ g.workers, w.phase ≠ .panicked) :
    (report p g = .ok .noSolution ∧ ∀ w ∈ g.workers, w.st.progress.bestScore.isFinite = false) ∨
    (∃ sched asg, report p g = .ok (.tables sched asg) ∧ ∃ w ∈ g.workers, w.st.progress.bestScore.isFinite = true) := by
  obtain ⟨raw, hd, hb⟩ := C55_input_as_described _ _ _ h1
  rcases report_ok hd hb hrng h2 h3 hok with h | ⟨s, a, x, sd, hw, e, _⟩
  · exact .inl h
  · right
    refine ⟨sd, x, e, ?_⟩
    obtain ⟨hin, hS⟩ := setup_wf hd hb hrng h2
    obtain ⟨sol, sc, h5, h6, _⟩ := C21_best_of_all_workers _ _ _ hS g h3 hok
    rw [hw] at h5
    cases h5
    rcases h6 with ⟨e, _⟩ | ⟨h6, hf, _⟩
    · cases e
    · obtain ⟨w, hw', e⟩ := List.mem_map.1 h6
      exact ⟨w, hw', by rw [← congrArg Prod.snd e] at hf; exact hf⟩

/-- **C52**: an error after the input has been accepted and prepared comes from a panicked worker. -/
theorem C52_errors (o : Outside F σ) (hrng : o.rng.Lawful) (opts : Opts F) (script : Reader.Script) (f : Fault)
    (h : TryRun o opts script (.error f)) :
    (Reader.readInput o.opt (Reader.new opts) script).1 = .error f ∨
    (∃ d, (Reader.readInput o.opt (Reader.new opts) script).1 = .ok d ∧
      prepare o d (Reader.effectiveOptions (Reader.readInput o.opt (Reader.new opts) script).2) = .error f) ∨
    f = .error "WorkerPanic" := by
  generalize hres : (Except.error f : R Output) = res at h
  cases h with
  | rejected h => cases hres; exact .inl h
  | unprepared h1 h2 => cases hres; exact .inr (.inl ⟨_, h1, h2⟩)
  | @solved d p g h1 h2 h3 h4 =>
    right; right
    by_cases hok : ∀ w ∈ g.workers, w.phase ≠ .panicked
    · rcases C52_no_other_outcome o hrng opts script d h1 p h2 g h3 hok with ⟨e, _⟩ | ⟨_, _, e, _⟩ <;>
        (rw [e] at hres; cases hres)
    · have hex : ∃ w ∈ g.workers, w.phase = .panicked := by
        apply Classical.byContradiction
        intro hn
        exact hok (fun w hw e => hn ⟨w, hw, e⟩)
      have := C21_panic_reported g hex
      unfold report at hres
      rw [this] at hres
      cases hres
      rfl

end Wassign

/-! ## A concrete run of the whole program -/
namespace Wassign.MainEx
open Threaded Main Reader ReadEx

/-- Two slots, two choices, two choosers and the constraint that swimming is on Tuesday. -/
def script : Script :=
  given (.slot "Monday".toList) fun s => then' (.add .slot s) <|
  given (.slot "Tuesday".toList) fun t => then' (.add .slot t) <|
  given (.choice "Swimming".toList [tagInt .max 2]) fun a => then' (.add .choice a) <|
  given (.choice "Chess".toList [tagInt .max 2]) fun b => then' (.add .choice b) <|
  given (.chooser "Ann".toList [.int 1, .str "2".toList]) fun p => then' (.add .chooser p) <|
  given (.chooser "Bob".toList [.int 2, .int 1]) fun q => then' (.add .chooser q) <|
  then' (.addExpr ⟨⟨.choice, .slot, "Swimming".toList, 0⟩, .eq, ⟨.slot, .notSet, "Tuesday".toList, 0⟩⟩) .done

/-- A backend that sends one unit over every edge, and clocks that stop every worker before its second iteration. -/
def outside : Outside Unit Nat where
  opt := env
  powf := fun x _ => x
  toF32 := fun _ => F32.ofU32 1
  cost := fun _ x => ((x + 1 : Nat) : Int) ^ 3
  rng := Ex.counter
  engine := fun b => b.toNat
  seed := 7
  draws := 10
  backend := fun _ _ f _ => some (f.edgesMax.map (fun _ => 1))
  lateAsg := fun _ _ => false
  lateHill := fun _ _ => false
  lateIter := fun _ n => decide (1 ≤ n)
  lateSearch := fun _ _ _ _ => false

def read := readInput outside.opt (new opts) script
def data : InputData := match read.1 with
  | .ok d => d
  | .error _ => default
def prepared : Prepared := match prepare outside data (effectiveOptions read.2) with
  | .ok p => p
  | .error _ => ⟨default, ⟨[], [], 0⟩, ⟨.empty, [], [], [], [], []⟩, ⟨true, fun _ => 0⟩⟩
def cfg := setup outside prepared (effectiveOptions read.2)
/-- The four workers take turns. -/
def final := ThEx.exec cfg ([0, 1, 2, 3, 3, 2, 1, 0, 0, 1, 2, 3, 0, 1, 2, 3, 0, 1, 2, 3, 0, 1, 2, 3]) (start cfg)

theorem read_ok : read.1 = .ok data := by
  have h : read.1.isOk = true := by decide +kernel
  unfold data
  cases e : read.1 with
  | ok d => rfl
  | error f => rw [e] at h; cases h

theorem prepare_ok : prepare outside data (effectiveOptions read.2) = .ok prepared := by
  have h : (prepare outside data (effectiveOptions read.2)).isOk = true := by decide +kernel
  unfold prepared
  cases e : prepare outside data (effectiveOptions read.2) with
  | ok d => rfl
  | error f => rw [e] at h; cases h

theorem final_phases : final.workers.map (fun w => (w.phase, w.started, w.st.progress.iterations)) =
    [(.finished, 2, 1), (.finished, 2, 1), (.finished, 2, 1), (.finished, 2, 1)] := by decide +kernel

theorem final_over : final.over := by
  intro w hw
  have h := List.mem_map_of_mem (f := fun w => (w.phase, w.started, w.st.progress.iterations)) hw
  rw [final_phases] at h
  simp at h
  exact .inl h.1

theorem reported : report prepared final = .ok (.tables
    (some "\"Choice\", \"Slot\"\n\"Swimming\", \"Tuesday\"\n\"Chess\", \"Monday\"".toList)
    "\"Chooser\", \"Monday\", \"Tuesday\"\n\"Ann\", \"Chess\", \"Swimming\"\n\"Bob\", \"Chess\", \"Swimming\"".toList) := by
  decide +kernel

/-- The hypotheses of C52 are met by a run that reads the script, searches with four workers, and prints two tables. -/
theorem printed : outside.rng.Lawful ∧ TryRun outside opts script (.ok (.tables
    (some "\"Choice\", \"Slot\"\n\"Swimming\", \"Tuesday\"\n\"Chess\", \"Monday\"".toList)
    "\"Chooser\", \"Monday\", \"Tuesday\"\n\"Ann\", \"Chess\", \"Swimming\"\n\"Bob\", \"Chess\", \"Swimming\"".toList)) :=
  ⟨Ex.counter_lawful, by
    rw [← reported]
    exact .solved read_ok prepare_ok (ThEx.exec_run cfg _ _) final_over⟩

end Wassign.MainEx
