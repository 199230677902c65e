import Verif.Spec.Process
import Verif.Proofs.ReadInput
import Verif.Props.Session
import Verif.Proofs.Lone
import Verif.Props.Total
/-
C63, C64: the program as a process: what it reads, its exit status, what it leaves behind, and when it is reproducible.
-/
namespace Wassign
open Spec Build Main Threaded Process

section
variable {F σ : Type}

/-! ### Delivering the tables -/

theorem outputString_cases (sys : Sys) (opts : Opts F) (text suffix : Str) (done : List Effect) :
    ∃ e, (outputString sys opts text suffix done = (.ok (), done ++ [e]) ∧
        e = (match opts.outputFile with
          | some pre => .wrote (pre ++ suffix) text
          | none => .printed (text ++ "\n\n".toList))) ∨
      (∃ f, outputString sys opts text suffix done = (.error f, done ++ [e]) ∧ Failed e ∧
        ((∃ path m, e = .writeFailed path ∧ f = .error m ∧ ∃ before x, sys.canWrite before path x = false) ∨
          ∃ m, e = .printFailed ∧ f = .panic m ∧ ∃ before x, sys.canPrint before x = false)) := by
  unfold outputString
  split
  · rename_i pre hpre
    split
    · exact ⟨_, .inl ⟨rfl, by rw [hpre]⟩⟩
    · rename_i hb
      exact ⟨_, .inr ⟨_, rfl, .inl ⟨_, rfl⟩, .inl ⟨_, _, rfl, rfl, _, _, Bool.eq_false_iff.2 hb⟩⟩⟩
  · rename_i hpre
    have e : text ++ ['\n'] ++ ['\n'] = text ++ "\n\n".toList := by rw [List.append_assoc]; rfl
    rw [e]
    split
    · exact ⟨_, .inl ⟨rfl, by rw [hpre]⟩⟩
    · rename_i hb
      exact ⟨_, .inr ⟨_, rfl, .inr rfl, .inr ⟨_, rfl, rfl, _, _, Bool.eq_false_iff.2 hb⟩⟩⟩

/-- What `handOut` does with tables that can be made. -/
theorem handOut_tables (sys : Sys) (opts : Opts F) (p : Prepared) (s : Scheduling) (a : Assignment) (sc : Score)
    (hsc : p.scoring.evaluate p.input (.complete s a) = .ok sc) (x y : Str) (hx : Output.writeScheduling p.input (.complete s a) = .ok x)
    (hy : Output.writeAssignment p.input (.complete s a) = .ok y) :
    (∃ effects, handOut sys opts p (.complete s a) [] = (.ok (), effects) ∧
      Delivered opts.outputFile (if 1 < p.input.ns then some x else none) y effects) ∨
    (∃ f effects, handOut sys opts p (.complete s a) [] = (.error f, effects) ∧
      BrokenOff opts.outputFile (if 1 < p.input.ns then some x else none) y effects ∧
      ((∃ path m, .writeFailed path ∈ effects ∧ f = .error m ∧ ∃ before x, sys.canWrite before path x = false) ∨
        ∃ m, .printFailed ∈ effects ∧ f = .panic m ∧ ∃ before x, sys.canPrint before x = false)) := by
  have hdel : handOut sys opts p (.complete s a) [] =
      if 1 < p.input.ns then
        match outputString sys opts x ".scheduling.csv".toList [] with
        | (.ok _, done) => outputString sys opts y ".assignment.csv".toList done
        | (.error f, done) => (.error f, done)
      else outputString sys opts y ".assignment.csv".toList [] := by
    unfold handOut
    change M.bind (M.lift _) _ [] = _
    unfold M.bind M.lift
    rw [hsc]
    simp only
    split
    · change M.bind (M.lift _) _ [] = _
      unfold M.bind M.lift
      rw [hx]
      simp only
      change M.bind (outputString sys opts x ".scheduling.csv".toList) _ [] = _
      unfold M.bind
      rcases outputString sys opts x ".scheduling.csv".toList [] with ⟨r, done⟩
      cases r with
      | error f => rfl
      | ok u =>
        simp only
        change M.bind (M.lift _) _ done = _
        unfold M.bind M.lift
        rw [hy]
    · change M.bind (M.pure ()) _ [] = _
      unfold M.bind M.pure
      simp only
      change M.bind (M.lift _) _ [] = _
      unfold M.bind M.lift
      rw [hy]
  rw [hdel]
  have full1 : ∀ w : Option Str, ∃ e1 e2 : Effect,
      (e1 = match opts.outputFile with
          | some pre => .wrote (pre ++ ".scheduling.csv".toList) x
          | none => .printed (x ++ "\n\n".toList)) ∧
      (e2 = match opts.outputFile with
          | some pre => .wrote (pre ++ ".assignment.csv".toList) y
          | none => .printed (y ++ "\n\n".toList)) ∧
      Delivered opts.outputFile (some x) y [e1, e2] ∧ Delivered opts.outputFile none y [e2] := by
    intro _
    refine ⟨_, _, rfl, rfl, ?_, ?_⟩ <;> (unfold Delivered; cases opts.outputFile <;> rfl)
  obtain ⟨e1, e2, h1, h2, d1, d2⟩ := full1 none
  split
  · rename_i hns
    obtain ⟨e, ⟨r, he⟩ | ⟨f, r, hf, hc⟩⟩ := outputString_cases sys opts x ".scheduling.csv".toList []
    · rw [r]
      simp only
      rw [← h1] at he
      subst he
      obtain ⟨e', ⟨r', he'⟩ | ⟨f, r', hf, hc⟩⟩ := outputString_cases sys opts y ".assignment.csv".toList [e]
      · rw [← h2] at he'
        subst he'
        exact .inl ⟨_, r', d1⟩
      · refine .inr ⟨f, _, r', ⟨[e, e2], [e], [], e2, e', d1, rfl, rfl, hf⟩, ?_⟩
        rcases hc with ⟨path, m, rfl, rfl, hno⟩ | ⟨m, rfl, rfl, hno⟩
        · exact .inl ⟨path, m, by simp, rfl, hno⟩
        · exact .inr ⟨m, by simp, rfl, hno⟩
    · rw [r]
      refine .inr ⟨f, _, rfl, ⟨[e1, e2], [], [e2], e1, e, d1, rfl, rfl, hf⟩, ?_⟩
      rcases hc with ⟨path, m, rfl, rfl, hno⟩ | ⟨m, rfl, rfl, hno⟩
      · exact .inl ⟨path, m, by simp, rfl, hno⟩
      · exact .inr ⟨m, by simp, rfl, hno⟩
  · rename_i hns
    obtain ⟨e', ⟨r', he'⟩ | ⟨f, r', hf, hc⟩⟩ := outputString_cases sys opts y ".assignment.csv".toList []
    · rw [← h2] at he'
      subst he'
      exact .inl ⟨_, r', d2⟩
    · refine .inr ⟨f, _, r', ⟨[e2], [], [], e2, e', d2, rfl, rfl, hf⟩, ?_⟩
      rcases hc with ⟨path, m, rfl, rfl, hno⟩ | ⟨m, rfl, rfl, hno⟩
      · exact .inl ⟨path, m, by simp, rfl, hno⟩
      · exact .inr ⟨m, by simp, rfl, hno⟩

/-! ### The program -/

variable {o : Outside F σ} {opts : Opts F} {script : Reader.Script} {sys : Sys}

/-- The options in force after the script has been read. -/
def effective (o : Outside F σ) (opts : Opts F) (script : Reader.Script) : Opts F :=
  Reader.effectiveOptions (Reader.readInput o.opt (Reader.new opts) script).2

theorem tryRunIO_cases {via : Sessions σ} (hvia : ∀ cfg g g', via cfg g g' → Run cfg g g') (hrng : o.rng.Lawful)
    {r : R Unit × List Effect} (h : TryRunIO via sys o opts script r) :
    (∃ f, r = (.error f, []) ∧ TryRun o opts script (.error f)) ∨
    (r = (.ok (), []) ∧ TryRun o opts script (.ok .noSolution)) ∨
    ∃ sched asg, TryRun o opts script (.ok (.tables sched asg)) ∧
      ((r.1 = .ok () ∧ Delivered (effective o opts script).outputFile sched asg r.2) ∨
       ∃ f, r.1 = .error f ∧ BrokenOff (effective o opts script).outputFile sched asg r.2 ∧
        ((∃ path m, .writeFailed path ∈ r.2 ∧ f = .error m ∧ ∃ before x, sys.canWrite before path x = false) ∨
          ∃ m, .printFailed ∈ r.2 ∧ f = .panic m ∧ ∃ before x, sys.canPrint before x = false)) := by
  cases h with
  | rejected h => exact .inl ⟨_, rfl, .rejected h⟩
  | unprepared h1 h2 => exact .inl ⟨_, rfl, .unprepared h1 h2⟩
  | @crashed d p g f h1 h2 h3 h4 h5 =>
    left
    refine ⟨f, rfl, ?_⟩
    have := TryRun.solved h1 h2 (hvia _ _ _ h3) h4
    have e : report p g = .error f := by
      unfold report
      rw [h5]; rfl
    rwa [e] at this
  | @solved d p g sol h1 h2 h3 h4 h5 =>
    right
    have ht := TryRun.solved h1 h2 (hvia _ _ _ h3) h4
    have hok : ∀ w ∈ g.workers, w.phase ≠ .panicked := by
      intro w hw hph
      rw [C21_panic_reported g ⟨w, hw, hph⟩] at h5
      cases h5
    obtain ⟨raw, hd, hb⟩ := C55_input_as_described _ _ _ h1
    obtain ⟨hin, hS⟩ := setup_wf hd hb hrng h2
    subst hin
    have hmax := fun q hq => ((described_fit hd).1 q hq).2.1
    obtain ⟨m, written, hbt⟩ := build_spec hmax hb
    have hn : (setup o p (effective o opts script)).problem.input.nc ≤ u32Max := by
      have := hbt.ncI32
      show p.input.nc ≤ u32Max
      unfold i32Max at this; unfold u32Max; omega
    obtain ⟨sol', hw, _, hsol⟩ := C21_invalid_iff _ _ _ hS g (hvia _ _ _ h3) hn hok
    rw [h5] at hw
    cases hw
    rcases hsol with rfl | ⟨s, a, rfl, hsh, hss, hv, hpl, sc, hsc, _⟩
    · left
      refine ⟨rfl, ?_⟩
      have e : report p g = .ok .noSolution := by
        unfold report
        rw [h5]; rfl
      rwa [e] at ht
    · right
      have hsh : Shape p.input s a := hsh
      have hss : SchedShape p.input s := hss
      have hv : Valid p.input s a := hv
      have hsc : p.scoring.evaluate p.input (.complete s a) = .ok sc := hsc
      obtain ⟨t1, w1, _⟩ := C41_scheduling_table p.input (.complete s a) s rfl hss
      obtain ⟨t2, w2, _⟩ := C40_valid_solution p.input s a hsh hv
      refine ⟨if 1 < p.input.ns then some (csv t1) else none, csv t2, ?_, ?_⟩
      · have e : report p g = .ok (.tables (if 1 < p.input.ns then some (csv t1) else none) (csv t2)) := by
          unfold report
          rw [h5]
          simp only [R.bind_ok, hsc, Solution.isInvalid, Bool.false_eq_true, if_false]
          split
          · rw [w1, R.bind_ok, R.pure_eq, R.bind_ok, w2]; rfl
          · rw [R.pure_eq, R.bind_ok, w2]; rfl
        rwa [e] at ht
      · rcases handOut_tables sys (effective o opts script) p s a sc hsc _ _ w1 w2 with ⟨ef, e, hd⟩ | ⟨f, ef, e, hb, hc⟩
        · left
          rw [show handOut sys (Reader.effectiveOptions (Reader.readInput o.opt (Reader.new opts) script).2) p (.complete s a) [] = _ from e]
          exact ⟨rfl, hd⟩
        · right
          rw [show handOut sys (Reader.effectiveOptions (Reader.readInput o.opt (Reader.new opts) script).2) p (.complete s a) [] = _ from e]
          exact ⟨f, rfl, hb, hc⟩

/-! ## C63 -/

theorem appendFile_fold (sys : Sys) : ∀ (files : List Str) (acc text : Str), files.foldlM (appendFile sys) acc = .ok text ↔
    ∃ contents : List Str, files.map sys.file = contents.map some ∧ text = acc ++ (contents.map (fun c => c ++ "\n".toList)).flatten := by
  intro files
  induction files with
  | nil =>
    intro acc text
    constructor
    · intro h; cases h; exact ⟨[], rfl, by simp⟩
    · rintro ⟨cs, h1, rfl⟩
      cases cs with
      | nil => simp [pure, Except.pure]
      | cons _ _ => cases h1
  | cons f rest ih =>
    intro acc text
    rw [List.foldlM_cons]
    unfold appendFile
    cases hf : sys.file f with
    | none =>
      constructor
      · intro h; cases h
      · rintro ⟨cs, h1, _⟩
        cases cs with
        | nil => cases h1
        | cons c cs => simp [hf] at h1
    | some c =>
      simp only [R.pure_eq, R.bind_ok]
      constructor
      · intro h
        obtain ⟨cs, h1, h2⟩ := (ih _ _).1 h
        refine ⟨c :: cs, by simp [hf, h1], ?_⟩
        rw [h2]
        simp
      · rintro ⟨cs, h1, h2⟩
        cases cs with
        | nil => cases h1
        | cons c' cs =>
          simp only [List.map_cons, List.cons.injEq, hf, Option.some.injEq] at h1
          obtain ⟨rfl, h1⟩ := h1
          refine (ih _ _).2 ⟨cs, h1, ?_⟩
          rw [h2]
          simp

theorem appendFile_fold_error (sys : Sys) : ∀ (files : List Str) (acc : Str) (f : Fault),
    files.foldlM (appendFile sys) acc = .error f → ∃ m, f = .error m := by
  intro files
  induction files with
  | nil => intro acc f h; cases h
  | cons x rest ih =>
    intro acc f h
    rw [List.foldlM_cons] at h
    unfold appendFile at h
    cases hf : sys.file x with
    | none => rw [hf] at h; cases h; exact ⟨_, rfl⟩
    | some c =>
      rw [hf] at h
      simp only [R.pure_eq, R.bind_ok] at h
      exact ih _ _ h

/-- **C63**: the script text is standard input, or the texts of the input files in the given order, each followed by a line feed. -/
theorem C63_input_text (sys : Sys) (opts : Opts F) (text : Str) :
    readInputString sys opts = .ok text ↔ GivenText sys opts.inputFiles text := by
  unfold readInputString GivenText
  cases hf : opts.inputFiles with
  | nil =>
    simp only [ne_eq, not_true_eq_false, false_and, or_false, true_and]
    cases hs : sys.stdin with
    | none => constructor <;> (intro h; cases h)
    | some s => constructor <;> (intro h; cases h; rfl)
  | cons f rest =>
    simp only [reduceCtorEq, false_and, false_or, ne_eq, not_false_eq_true, true_and]
    rw [appendFile_fold]
    simp

theorem readInputString_error {sys : Sys} {opts : Opts F} {f : Fault} (h : readInputString sys opts = .error f) :
    (∃ m, f = .error m) ∧ ∀ text, ¬ GivenText sys opts.inputFiles text := by
  refine ⟨?_, fun text ht => by rw [(C63_input_text sys opts text).2 ht] at h; cases h⟩
  unfold readInputString at h
  split at h
  · split at h
    · cases h
    · cases h; exact ⟨_, rfl⟩
  · exact appendFile_fold_error _ _ _ _ h

/-- The program's surroundings, with the engine seeded as `main` does. -/
abbrev seeded (o : Outside F σ) (sys : Sys) : Outside F σ := { o with seed := seedOf sys }

/-- **C63**: exit status 0 means that the whole input was read and accepted and the search came to an end, and then either there
was nothing to deliver, and nothing was written, or both tables were delivered completely, and nothing else was done. -/
theorem C63_exit_zero (sys : Sys) (o : Outside F σ) (hrng : o.rng.Lawful) (parse : Str → Reader.Script) (opts : Opts F)
    (effects : List Effect) (h : Runs sys o parse opts 0 effects) :
    ∃ text, GivenText sys opts.inputFiles text ∧
      ((effects = [] ∧ TryRun (seeded o sys) opts (parse text) (.ok .noSolution)) ∨
       ∃ sched asg, TryRun (seeded o sys) opts (parse text) (.ok (.tables sched asg)) ∧
        Delivered (effective o opts (parse text)).outputFile sched asg effects) := by
  generalize hc : 0 = code at h
  cases h with
  | unreadable h =>
    obtain ⟨⟨m, rfl⟩, _⟩ := readInputString_error h
    cases hc
  | @ran text r h1 h2 =>
    refine ⟨text, (C63_input_text _ _ _).1 h1, ?_⟩
    rcases tryRunIO_cases (o := seeded o sys) (fun _ _ _ h => h) hrng h2 with ⟨f, rfl, _⟩ | ⟨rfl, ht⟩ | ⟨sched, asg, ht, ⟨_, hd⟩ | ⟨f, e, _⟩⟩
    · cases f <;> cases hc
    · exact .inl ⟨rfl, ht⟩
    · exact .inr ⟨sched, asg, ht, hd⟩
    · rw [e] at hc
      cases f <;> cases hc

/-- **C63**: any other exit status is 1 or 101. It means that the input could not be read, or that it was rejected or the search
failed, and then nothing was written; or that a table could not be written, and then nothing was written after it. -/
theorem C63_exit_other (sys : Sys) (o : Outside F σ) (hrng : o.rng.Lawful) (parse : Str → Reader.Script) (opts : Opts F)
    (code : Nat) (effects : List Effect) (h : Runs sys o parse opts code effects) (hcode : code ≠ 0) :
    (effects = [] ∧ code = 1 ∧ ∀ text, ¬ GivenText sys opts.inputFiles text) ∨
    ∃ text, GivenText sys opts.inputFiles text ∧
      ((∃ msg, effects = [] ∧ code = 1 ∧ TryRun (seeded o sys) opts (parse text) (.error (.error msg))) ∨
       (∃ site, effects = [] ∧ code = 101 ∧ TryRun (seeded o sys) opts (parse text) (.error (.panic site))) ∨
       ∃ sched asg, TryRun (seeded o sys) opts (parse text) (.ok (.tables sched asg)) ∧
        BrokenOff (effective o opts (parse text)).outputFile sched asg effects ∧
        ((code = 1 ∧ ∃ path, .writeFailed path ∈ effects ∧ ∃ before x, sys.canWrite before path x = false) ∨
         (code = 101 ∧ .printFailed ∈ effects ∧ ∃ before x, sys.canPrint before x = false))) := by
  cases h with
  | unreadable h =>
    obtain ⟨⟨m, rfl⟩, hn⟩ := readInputString_error h
    exact .inl ⟨rfl, rfl, hn⟩
  | @ran text r h1 h2 =>
    right
    refine ⟨text, (C63_input_text _ _ _).1 h1, ?_⟩
    rcases tryRunIO_cases (o := seeded o sys) (fun _ _ _ h => h) hrng h2 with ⟨f, rfl, ht⟩ | ⟨rfl, _⟩ | ⟨sched, asg, ht, ⟨e, _⟩ | ⟨f, e, hb, hc⟩⟩
    · cases f with
      | error m => exact .inl ⟨m, rfl, rfl, ht⟩
      | panic m => exact .inr (.inl ⟨m, rfl, rfl, ht⟩)
    · exact absurd rfl hcode
    · rw [e] at hcode; exact absurd rfl hcode
    · refine .inr (.inr ⟨sched, asg, ht, hb, ?_⟩)
      rw [e]
      rcases hc with ⟨path, m, hm, rfl, hno⟩ | ⟨m, hm, rfl, hno⟩
      · exact .inl ⟨rfl, path, hm, hno⟩
      · exact .inr ⟨rfl, hm, hno⟩

/-- **C63**: what the process leaves behind in files or on standard output are the tables of a timetable that answers the input
described by the script. -/
theorem C63_delivered_timetable (sys : Sys) (o : Outside F σ) (hrng : o.rng.Lawful) (parse : Str → Reader.Script) (opts : Opts F)
    (effects : List Effect) (h : Runs sys o parse opts 0 effects) (hne : effects ≠ []) :
    ∃ text raw d s a sched asg, GivenText sys opts.inputFiles text ∧ Describes (outcome o.opt opts (parse text)).1 raw ∧
      build raw = .ok d ∧ Answer raw d s a ∧ Fulfils raw d s a ∧
      (∃ table, asg = csv table ∧ AssignmentTable d s a table) ∧
      (if 1 < d.ns then ∃ table, sched = some (csv table) ∧ SchedulingTable d s table else sched = none) ∧
      Delivered (effective o opts (parse text)).outputFile sched asg effects := by
  obtain ⟨text, hg, ⟨e, _⟩ | ⟨sched, asg, ht, hd⟩⟩ := C63_exit_zero sys o hrng parse opts effects h
  · exact absurd e hne
  · obtain ⟨raw, d, s, a, h1, h2, h3, h4, h5, h6⟩ := C52_printed_timetable (seeded o sys) hrng opts (parse text) sched asg ht
    exact ⟨text, raw, d, s, a, sched, asg, hg, h1, h2, h3, h4, h5, h6, hd⟩

/-- **C63**: after a delivery to files, each of them contains exactly its table, and every other file is as before; in
particular, with a single slot an old scheduling file stays as it is. -/
theorem C63_files (before : Str → Option Str) (pre : Str) (sched : Option Str) (asg : Str) (effects : List Effect)
    (h : Delivered (some pre) sched asg effects) :
    contentAfter before effects (pre ++ ".assignment.csv".toList) = some asg ∧
    contentAfter before effects (pre ++ ".scheduling.csv".toList) = sched.or (before (pre ++ ".scheduling.csv".toList)) ∧
    (∀ path, path ≠ pre ++ ".assignment.csv".toList → path ≠ pre ++ ".scheduling.csv".toList →
      contentAfter before effects path = before path) ∧
    printedText effects = [] := by
  have hne : pre ++ ".scheduling.csv".toList ≠ pre ++ ".assignment.csv".toList := by
    intro e
    have := List.append_cancel_left e
    revert this
    decide
  change effects = _ at h
  generalize pre ++ ".scheduling.csv".toList = ps at *
  generalize pre ++ ".assignment.csv".toList = pa at *
  subst h
  cases sched with
  | none =>
    refine ⟨by simp [contentAfter], ?_, ?_, rfl⟩
    · simp only [contentAfter, Option.map_none, Option.toList_none, List.nil_append, List.foldl_cons, List.foldl_nil]
      rw [if_neg (Ne.symm hne)]; rfl
    · intro path h1 h2
      simp only [contentAfter, Option.map_none, Option.toList_none, List.nil_append, List.foldl_cons, List.foldl_nil]
      rw [if_neg (Ne.symm h1)]
  | some s =>
    refine ⟨?_, ?_, ?_, rfl⟩
    · simp only [contentAfter, Option.map_some, Option.toList_some, List.cons_append, List.nil_append, List.foldl_cons, List.foldl_nil,
        if_true]
    · simp only [contentAfter, Option.map_some, Option.toList_some, List.cons_append, List.nil_append, List.foldl_cons, List.foldl_nil,
        if_true]
      rw [if_neg (Ne.symm hne)]; rfl
    · intro path h1 h2
      simp only [contentAfter, Option.map_some, Option.toList_some, List.cons_append, List.nil_append, List.foldl_cons, List.foldl_nil]
      rw [if_neg (Ne.symm h1), if_neg (Ne.symm h2)]

/-- **C63**: after a delivery to standard output, this contains the tables, each followed by an empty line, and no file has
changed. -/
theorem C63_standard_output (before : Str → Option Str) (sched : Option Str) (asg : Str) (effects : List Effect)
    (h : Delivered none sched asg effects) :
    printedText effects = (sched.map (fun s => s ++ "\n\n".toList)).getD [] ++ (asg ++ "\n\n".toList) ∧
    ∀ path, contentAfter before effects path = before path := by
  change effects = _ at h
  subst h
  cases sched with
  | none => exact ⟨by simp [printedText], fun path => by simp [contentAfter]⟩
  | some s => exact ⟨by simp [printedText], fun path => by simp [contentAfter]⟩

/-- **C63**: an input that is accepted and manageable gets exit status 0 if the tables can be written, whatever the threads, the
clocks and the (lawful, sound) engine and backend do. -/
theorem C63_accepted_exits_zero (sys : Sys) (o : Outside F σ) (hov : o.opt.overflow = .wraps)
    (parse : Str → Reader.Script) (opts : Opts F) (text : Str)
    (htext : GivenText sys opts.inputFiles text) (hh : Honest [] (parse text))
    (hm : AllManageable (outcome o.opt opts (parse text)).1) (d : InputData)
    (hd : (Reader.readInput o.opt (Reader.new opts) (parse text)).1 = .ok d) (ho : Trusted o d.nc)
    (hcs : 0 ≤ (effective o opts (parse text)).csTimeout)
    (hw : ∀ done path x, sys.canWrite done path x = true) (hp : ∀ done x, sys.canPrint done x = true)
    (code : Nat) (effects : List Effect) (h : Runs sys o parse opts code effects) : code = 0 := by
  have nofail : ∀ f, ¬ TryRun (seeded o sys) opts (parse text) (.error f) := by
    intro f ht
    have := (C49_program_never_panics (seeded o sys) hov opts (parse text) hh hm
      (fun d' hd' => by
        have hd' : (Reader.readInput o.opt (Reader.new opts) (parse text)).1 = .ok d' := hd'
        rw [hd] at hd'; cases hd'
        exact ⟨ho.lawful, ho.varied, ho.backend⟩) hcs f ht).2
    have this : (Reader.readInput o.opt (Reader.new opts) (parse text)).1 = .error f := this
    rw [hd] at this; cases this
  cases h with
  | unreadable h => exact absurd htext ((readInputString_error h).2 text)
  | @ran text' r h1 h2 =>
    rw [(C63_input_text _ _ _).2 htext] at h1
    cases h1
    rcases tryRunIO_cases (o := seeded o sys) (fun _ _ _ h => h) ho.lawful h2 with ⟨f, _, ht⟩ | ⟨rfl, _⟩ |
      ⟨sched, asg, ht, ⟨e, _⟩ | ⟨f, e, _, hc⟩⟩
    · exact absurd ht (nofail f)
    · rfl
    · rw [e]; rfl
    · exfalso
      rcases hc with ⟨path, m, _, _, b, x, hno⟩ | ⟨m, _, _, b, x, hno⟩
      · rw [hw] at hno; cases hno
      · rw [hp] at hno; cases hno

/-- **C63**: if `WASSIGN_SEED` is a decimal number (with or without a plus sign) of at most 64 bits, this is the seed. -/
theorem C63_seed (sys : Sys) (ds : Str) (hne : ds ≠ []) (hd : ∀ c ∈ ds, IsDigit c) (hle : decimal ds ≤ 18446744073709551615)
    (hs : sys.seedVar = some ds ∨ sys.seedVar = some ('+' :: ds)) : (seedOf sys).toNat = decimal ds := by
  have hv : digitsVal 18446744073709551615 0 ds = some (decimal ds) := digitsVal_zero.2 ⟨hd, rfl, hle⟩
  have hp : sys.seedVar.bind (parseUnsigned 18446744073709551615) = some (decimal ds) := by
    rcases hs with hs | hs <;> rw [hs, Option.bind_some]
    · unfold parseUnsigned
      cases ds with
      | nil => exact absurd rfl hne
      | cons c rest =>
        have hc : c ≠ '+' := by
          intro e
          exact plusMinus_not_digit.1 (e ▸ hd c (by simp))
        simp only [if_neg hc]
        exact hv
    · unfold parseUnsigned
      simp only [if_true]
      rw [if_neg (by cases ds with | nil => exact absurd rfl hne | cons _ _ => simp)]
      exact hv
  unfold seedOf
  rw [hp]
  simp only [BitVec.toNat_ofNat]
  omega

/-- **C63**: otherwise the clock is the seed. -/
theorem C63_seed_from_clock (sys : Sys) (hn : sys.nanos ≤ 18446744073709551615)
    (h : ∀ s, sys.seedVar = some s → ∀ ds, s = ds ∨ s = '+' :: ds → ds = [] ∨ (∃ c ∈ ds, ¬ IsDigit c) ∨ 18446744073709551615 < decimal ds) :
    (seedOf sys).toNat = sys.nanos := by
  have hp : sys.seedVar.bind (parseUnsigned 18446744073709551615) = none := by
    cases hs : sys.seedVar with
    | none => rfl
    | some s =>
      have hds : ∀ ds, (s = ds ∨ s = '+' :: ds) → ds ≠ [] → digitsVal 18446744073709551615 0 ds = none := by
        intro ds he hne
        cases hv : digitsVal 18446744073709551615 0 ds with
        | none => rfl
        | some n =>
          obtain ⟨h1, h2, h3⟩ := digitsVal_zero.1 hv
          rcases h s hs ds he with e | ⟨c, hc, hn⟩ | e
          · exact absurd e hne
          · exact absurd (h1 c hc) hn
          · omega
      rw [Option.bind_some]
      unfold parseUnsigned
      cases s with
      | nil => rfl
      | cons c rest =>
        simp only
        split
        · rename_i e
          subst e
          split
          · rfl
          · rename_i hr
            exact hds rest (.inr rfl) (by simpa using hr)
        · exact hds _ (.inl rfl) (by simp)
  unfold seedOf
  rw [hp]
  simp only [if_pos hn, BitVec.toNat_ofNat]
  omega

/-! ## C64 -/

/-- The sessions that nobody cancels and in which no worker finds the deadline passed at the head of its loop. -/
abbrev calmly : Sessions σ := fun cfg => Undisturbed cfg

/-- **C64**: the same command and input with the same `WASSIGN_SEED`, started at another time and with another interleaving of the
workers, gives the same exit status and exactly the same output, if neither run is stopped by its time limit (`o`: the clock has
the same answers in both), and unless several workers race for the first solution (`--any` with several slots and threads). -/
theorem C64_reproducible (sys : Sys) (nanos : Nat) (o : Outside F σ) (parse : Str → Reader.Script) (opts : Opts F)
    (ds : Str) (hne : ds ≠ []) (hdig : ∀ c ∈ ds, IsDigit c) (hle : decimal ds ≤ 18446744073709551615) (hseed : sys.seedVar = some ds)
    (hone : ∀ text d, (Reader.readInput o.opt (Reader.new opts) (parse text)).1 = .ok d →
      (effective o opts (parse text)).any = false ∨ (effective o opts (parse text)).threads ≤ 1 ∨ d.slots.length = 1)
    (code code' : Nat) (effects effects' : List Effect) (h : RunsVia calmly sys o parse opts code effects)
    (h' : RunsVia calmly { sys with nanos := nanos } o parse opts code' effects') : code = code' ∧ effects = effects' := by
  have hs : seedOf { sys with nanos := nanos } = seedOf sys := by
    apply BitVec.eq_of_toNat_eq
    rw [C63_seed sys ds hne hdig hle (.inl hseed), C63_seed { sys with nanos := nanos } ds hne hdig hle (.inl hseed)]
  have hr : readInputString { sys with nanos := nanos } opts = readInputString sys opts := rfl
  cases h with
  | unreadable h1 =>
    cases h' with
    | unreadable h1' => rw [hr, h1] at h1'; cases h1'; exact ⟨rfl, rfl⟩
    | ran h1' _ => rw [hr, h1] at h1'; cases h1'
  | @ran text r h1 h2 =>
    cases h' with
    | unreadable h1' => rw [hr, h1] at h1'; cases h1'
    | @ran text' r' h1' h2' =>
      rw [hr, h1] at h1'
      cases h1'
      rw [hs] at h2'
      have key : r = r' := by
        have sess : ∀ d p g g', (Reader.readInput o.opt (Reader.new opts) (parse text)).1 = .ok d →
            prepare (seeded o sys) d (effective o opts (parse text)) = .ok p →
            Undisturbed (setup (seeded o sys) p (effective o opts (parse text)))
              (start (setup (seeded o sys) p (effective o opts (parse text)))) g →
            Undisturbed (setup (seeded o sys) p (effective o opts (parse text)))
              (start (setup (seeded o sys) p (effective o opts (parse text)))) g' → g.over → g'.over → wait g = wait g' := by
          intro d p g g' hd hp hg hg' og og'
          have hin : p.input = d := by
            unfold prepare at hp
            simp only [R.bind_eq_ok] at hp
            obtain ⟨an, _, st, _, hp⟩ := hp
            cases hp; rfl
          rcases hone text d hd with ha | h1
          · exact (C57_deterministic _ ha g g' hg hg' og og').2
          · have hl : (start (setup (seeded o sys) p (effective o opts (parse text)))).workers.length = 1 := by
              have hc : workerCount (setup (seeded o sys) p (effective o opts (parse text))) = 1 := by
                unfold workerCount
                change (if p.input.ns = 1 then 1 else max (effective o opts (parse text)).threads 1) = 1
                rcases h1 with h1 | h1
                · split
                  · rfl
                  · omega
                · rw [if_pos (by rw [hin]; exact h1)]
              simp [start, hc]
            rw [undisturbed_lone hl hg hg' og og']
        cases h2 with
        | @rejected f a =>
          have a : (Reader.readInput o.opt (Reader.new opts) (parse text)).1 = .error f := a
          cases h2' with
          | rejected b => 
            have b : (Reader.readInput o.opt (Reader.new opts) (parse text)).1 = _ := b
            rw [a] at b; cases b; rfl
          | unprepared b => 
            have b : (Reader.readInput o.opt (Reader.new opts) (parse text)).1 = _ := b
            rw [a] at b; cases b
          | crashed b => 
            have b : (Reader.readInput o.opt (Reader.new opts) (parse text)).1 = _ := b
            rw [a] at b; cases b
          | solved b => 
            have b : (Reader.readInput o.opt (Reader.new opts) (parse text)).1 = _ := b
            rw [a] at b; cases b
        | @unprepared d f a a2 =>
          have a : (Reader.readInput o.opt (Reader.new opts) (parse text)).1 = .ok d := a
          have a2 : prepare (seeded o sys) d (effective o opts (parse text)) = _ := a2
          cases h2' with
          | rejected b => 
            have b : (Reader.readInput o.opt (Reader.new opts) (parse text)).1 = _ := b
            rw [a] at b; cases b
          | unprepared b b2 => 
            have b : (Reader.readInput o.opt (Reader.new opts) (parse text)).1 = _ := b
            rw [a] at b; cases b
            have b2 : prepare (seeded o sys) d (effective o opts (parse text)) = _ := b2
            rw [a2] at b2; cases b2; rfl
          | crashed b b2 => 
            have b : (Reader.readInput o.opt (Reader.new opts) (parse text)).1 = _ := b
            rw [a] at b; cases b
            have b2 : prepare (seeded o sys) d (effective o opts (parse text)) = _ := b2
            rw [a2] at b2; cases b2
          | solved b b2 => 
            have b : (Reader.readInput o.opt (Reader.new opts) (parse text)).1 = _ := b
            rw [a] at b; cases b
            have b2 : prepare (seeded o sys) d (effective o opts (parse text)) = _ := b2
            rw [a2] at b2; cases b2
        | @crashed d p g f a a2 a3 a4 a5 =>
          have a : (Reader.readInput o.opt (Reader.new opts) (parse text)).1 = .ok d := a
          have a2 : prepare (seeded o sys) d (effective o opts (parse text)) = _ := a2
          cases h2' with
          | rejected b => 
            have b : (Reader.readInput o.opt (Reader.new opts) (parse text)).1 = _ := b
            rw [a] at b; cases b
          | unprepared b b2 => 
            have b : (Reader.readInput o.opt (Reader.new opts) (parse text)).1 = _ := b
            rw [a] at b; cases b
            have b2 : prepare (seeded o sys) d (effective o opts (parse text)) = _ := b2
            rw [a2] at b2; cases b2
          | crashed b b2 b3 b4 b5 => 
            have b : (Reader.readInput o.opt (Reader.new opts) (parse text)).1 = _ := b
            rw [a] at b; cases b
            have b2 : prepare (seeded o sys) d (effective o opts (parse text)) = _ := b2
            rw [a2] at b2; cases b2
            have := sess _ _ _ _ a a2 a3 b3 a4 b4
            rw [a5, b5] at this
            cases this; rfl
          | solved b b2 b3 b4 b5 => 
            have b : (Reader.readInput o.opt (Reader.new opts) (parse text)).1 = _ := b
            rw [a] at b; cases b
            have b2 : prepare (seeded o sys) d (effective o opts (parse text)) = _ := b2
            rw [a2] at b2; cases b2
            have := sess _ _ _ _ a a2 a3 b3 a4 b4
            rw [a5, b5] at this
            cases this
        | @solved d p g f a a2 a3 a4 a5 =>
          have a : (Reader.readInput o.opt (Reader.new opts) (parse text)).1 = .ok d := a
          have a2 : prepare (seeded o sys) d (effective o opts (parse text)) = _ := a2
          cases h2' with
          | rejected b => 
            have b : (Reader.readInput o.opt (Reader.new opts) (parse text)).1 = _ := b
            rw [a] at b; cases b
          | unprepared b b2 => 
            have b : (Reader.readInput o.opt (Reader.new opts) (parse text)).1 = _ := b
            rw [a] at b; cases b
            have b2 : prepare (seeded o sys) d (effective o opts (parse text)) = _ := b2
            rw [a2] at b2; cases b2
          | crashed b b2 b3 b4 b5 => 
            have b : (Reader.readInput o.opt (Reader.new opts) (parse text)).1 = _ := b
            rw [a] at b; cases b
            have b2 : prepare (seeded o sys) d (effective o opts (parse text)) = _ := b2
            rw [a2] at b2; cases b2
            have := sess _ _ _ _ a a2 a3 b3 a4 b4
            rw [a5, b5] at this
            cases this
          | solved b b2 b3 b4 b5 => 
            have b : (Reader.readInput o.opt (Reader.new opts) (parse text)).1 = _ := b
            rw [a] at b; cases b
            have b2 : prepare (seeded o sys) d (effective o opts (parse text)) = _ := b2
            rw [a2] at b2; cases b2
            have := sess _ _ _ _ a a2 a3 b3 a4 b4
            rw [a5, b5] at this
            cases this; rfl
      rw [key]; exact ⟨rfl, rfl⟩

end
end Wassign

/-! ## A concrete process -/
namespace Wassign.ProcEx
open Threaded Main Reader ReadEx Process Spec

/-- The input comes in two files; the script asks for files with the prefix "plan". -/
def sys : Sys where
  seedVar := some "7".toList
  nanos := 1234
  stdin := none
  file := fun f => if f = "a.rhai".toList then some "first".toList else if f = "b.rhai".toList then some "second".toList else none
  canWrite := fun _ _ _ => true
  canPrint := fun _ _ => false
def opts : Opts Unit := { ReadEx.opts with inputFiles := ["a.rhai".toList, "b.rhai".toList] }
def script : Script := then' (.setArguments [.str "-o".toList, .str "plan".toList]) MainEx.script
def parse (text : Str) : Script := if text = "first\nsecond\n".toList then script else .fail

abbrev o : Outside Unit Nat := MainEx.outside
def read := readInput o.opt (new opts) script
def data : InputData := match read.1 with
  | .ok d => d
  | .error _ => default
def prepared : Prepared := match prepare (seeded o sys) data (effective o opts script) with
  | .ok p => p
  | .error _ => MainEx.prepared
def cfg := setup (seeded o sys) prepared (effective o opts script)
def final := ThEx.exec cfg ([0, 1, 2, 3, 3, 2, 1, 0, 0, 1, 2, 3, 0, 1, 2, 3, 0, 1, 2, 3, 0, 1, 2, 3]) (start cfg)
def sol : Solution := match wait final with
  | .ok s => s
  | .error _ => .invalid

theorem isOk_eq {α : Type} {x : R α} (h : x.isOk = true) : ∃ a, x = .ok a := by
  cases x with
  | ok a => exact ⟨a, rfl⟩
  | error f => cases h

theorem read_ok : (readInput (seeded o sys).opt (new opts) script).1 = .ok data := by
  obtain ⟨d, e⟩ := isOk_eq (x := read.1) (by decide +kernel)
  unfold data
  rw [e]
  exact e

theorem prepare_ok : prepare (seeded o sys) data (effective o opts script) = .ok prepared := by
  obtain ⟨d, e⟩ := isOk_eq (x := prepare (seeded o sys) data (effective o opts script)) (by decide +kernel)
  unfold prepared
  rw [e]

theorem final_over : final.over := by
  have hp : final.workers.map (fun w => w.phase) = [.finished, .finished, .finished, .finished] := by decide +kernel
  intro w hw
  have h := List.mem_map_of_mem (f := fun w : Worker Nat ASolver (Nat × Nat) => w.phase) hw
  rw [hp] at h
  simp at h
  exact .inl h

theorem wait_ok : wait final = .ok sol := by
  obtain ⟨d, e⟩ := isOk_eq (x := wait final) (by decide +kernel)
  unfold sol
  rw [e]

def files : List Effect := [
  .wrote "plan.scheduling.csv".toList "\"Choice\", \"Slot\"\n\"Swimming\", \"Tuesday\"\n\"Chess\", \"Monday\"".toList,
  .wrote "plan.assignment.csv".toList
    "\"Chooser\", \"Monday\", \"Tuesday\"\n\"Ann\", \"Chess\", \"Swimming\"\n\"Bob\", \"Chess\", \"Swimming\"".toList]

theorem handed : handOut sys (effective o opts script) prepared sol [] = (.ok (), files) := by decide +kernel

theorem text_ok : readInputString sys opts = .ok "first\nsecond\n".toList := by decide +kernel

/-- The hypotheses of C63 and C64 are met by a process that reads two files, runs four workers, writes two files, and ends with exit
status 0. -/
theorem process : o.rng.Lawful ∧ Runs sys o parse opts 0 files ∧ RunsVia calmly sys o parse opts 0 files := by
  have hp : parse "first\nsecond\n".toList = script := if_pos rfl
  refine ⟨Ex.counter_lawful, ?_, ?_⟩
  · have h : TryRunIO (fun cfg => Run cfg) sys (seeded o sys) opts script
        (handOut sys (effectiveOptions (readInput (seeded o sys).opt (new opts) script).2) prepared sol []) :=
      .solved read_ok prepare_ok (ThEx.exec_run cfg _ _) final_over wait_ok
    have := RunsVia.ran (o := o) (parse := parse) text_ok (by rw [hp]; exact h)
    rw [show handOut sys (effectiveOptions (readInput (seeded o sys).opt (new opts) script).2) prepared sol [] = _ from handed] at this
    exact this
  · have h : TryRunIO calmly sys (seeded o sys) opts script
        (handOut sys (effectiveOptions (readInput (seeded o sys).opt (new opts) script).2) prepared sol []) :=
      .solved read_ok prepare_ok (ThEx.exec_undisturbed cfg _ _) final_over wait_ok
    have := RunsVia.ran (o := o) (parse := parse) text_ok (by rw [hp]; exact h)
    rw [show handOut sys (effectiveOptions (readInput (seeded o sys).opt (new opts) script).2) prepared sol [] = _ from handed] at this
    exact this

/-- The other hypotheses of C64: the seed is a number, and `--any` is not given. -/
theorem reproducible_hyps : sys.seedVar = some "7".toList ∧ "7".toList ≠ [] ∧ (∀ c ∈ "7".toList, IsDigit c) ∧
    decimal "7".toList ≤ 18446744073709551615 ∧ (∀ text, (effective o opts (parse text)).any = false) := by
  refine ⟨rfl, by decide, ?_, by decide +kernel, ?_⟩
  · intro c hc
    simp at hc
    subst hc
    unfold IsDigit
    decide
  · intro text
    unfold parse
    split <;> decide +kernel

/-- Finding 24: without a solution the exit status is 0 too, and files of an earlier run stay as they are: they look like the result.
Here the search has no time at all. -/
def noTime : Outside Unit Nat := { o with lateIter := fun _ _ => true }
def noPrepared : Prepared := match prepare (seeded noTime sys) data (effective o opts script) with
  | .ok p => p
  | .error _ => MainEx.prepared
def noCfg := setup (seeded noTime sys) noPrepared (effective o opts script)
def noFinal := ThEx.exec noCfg ([0, 1, 2, 3, 3, 2, 1, 0, 0, 1, 2, 3]) (start noCfg)

theorem C63_stale_files : Runs sys noTime parse opts 0 [] ∧
    ∀ before path, contentAfter before [] path = before path := by
  refine ⟨?_, fun _ _ => rfl⟩
  have hp : parse "first\nsecond\n".toList = script := if_pos rfl
  have hprep : prepare (seeded noTime sys) data (effective o opts script) = .ok noPrepared := by
    obtain ⟨d, e⟩ := isOk_eq (x := prepare (seeded noTime sys) data (effective o opts script)) (by decide +kernel)
    unfold noPrepared
    rw [e]
  have hover : noFinal.over := by
    have hp : noFinal.workers.map (fun w => w.phase) = [.finished, .finished, .finished, .finished] := by decide +kernel
    intro w hw
    have h := List.mem_map_of_mem (f := fun w : Worker Nat ASolver (Nat × Nat) => w.phase) hw
    rw [hp] at h
    simp at h
    exact .inl h
  have hwait : wait noFinal = .ok .invalid := by decide +kernel
  have h : TryRunIO (fun cfg => Run cfg) sys (seeded noTime sys) opts script
      (handOut sys (effectiveOptions (readInput (seeded noTime sys).opt (new opts) script).2) noPrepared .invalid []) :=
    .solved read_ok hprep (ThEx.exec_run noCfg _ _) hover hwait
  exact RunsVia.ran (o := noTime) (parse := parse) text_ok (by rw [hp]; exact h)

end Wassign.ProcEx
