import Verif.Model.Main
/-
main.rs:11-50, 106-162: the program as an operating system process: seed, input files, exit status, output files.

Not modelled: clap (`Options::parse`; the options of the command line are given), the text of error and status messages
(standard error), and what the script itself prints. The Rhai parser and interpreter are a parameter: `parse` turns the
text into the interaction with the interface (Reader.lean).
-/
namespace Wassign
namespace Process
open Main Threaded

/-- What the process does to the outside world, in order. -/
inductive Effect where
  | wrote (path text : Str)
  | writeFailed (path : Str)
  | printed (text : Str)
  | printFailed
deriving DecidableEq, Repr

/-- The operating system: the environment variable (`none` also if it is not Unicode), the nanoseconds since 1970 (0 if the
clock is before), standard input and files as texts (`none` if they cannot be read or are not Unicode), and whether the
next write to a file or to standard output succeeds, which may depend on everything done before. -/
structure Sys where
  seedVar : Option Str
  nanos : Nat
  stdin : Option Str
  file : Str → Option Str
  canWrite : List Effect → Str → Str → Bool
  canPrint : List Effect → Str → Bool

/-- main.rs:16-26: the seed (`u64`). -/
def seedOf (sys : Sys) : BitVec 64 :=
  match sys.seedVar.bind (parseUnsigned 18446744073709551615) with
  | some n => BitVec.ofNat 64 n
  | none => if sys.nanos ≤ 18446744073709551615 then BitVec.ofNat 64 sys.nanos else 0#64

/-- main.rs:142-148: one input file. -/
def appendFile (sys : Sys) (acc file : Str) : R Str :=
  match sys.file file with
  | some content => pure (acc ++ content ++ ['\n'])
  | none => .error (.error "cannot read input file")

/-- main.rs:131-150 `read_input_string`. -/
def readInputString {F : Type} (sys : Sys) (opts : Opts F) : R Str :=
  match opts.inputFiles with
  | [] =>
    match sys.stdin with
    | some s => pure s
    | none => .error (.error "cannot read standard input")
  | files => files.foldlM (appendFile sys) []

/-- main.rs:152-162 `output_string`; `println!` panics if it cannot write. -/
def outputString {F : Type} (sys : Sys) (opts : Opts F) (text suffix : Str) : M (List Effect) Unit := fun done =>
  match opts.outputFile with
  | some prefix' =>
    if sys.canWrite done (prefix' ++ suffix) text then (.ok (), done ++ [.wrote (prefix' ++ suffix) text])
    else (.error (.error "cannot write output file"), done ++ [.writeFailed (prefix' ++ suffix)])
  | none =>
    if sys.canPrint done (text ++ ['\n'] ++ ['\n']) then (.ok (), done ++ [.printed (text ++ ['\n'] ++ ['\n'])])
    else (.error (.panic "failed printing to stdout"), done ++ [.printFailed])

/-- main.rs:110-128: what follows the search, in the order of the code. -/
def handOut {F : Type} (sys : Sys) (opts : Opts F) (p : Prepared) (sol : Solution) : M (List Effect) Unit :=
  if sol.isInvalid then M.pure ()
  else do
    let _ ← M.lift (p.scoring.evaluate p.input sol)
    if 1 < p.input.ns then do
      let scheduling ← M.lift (Output.writeScheduling p.input sol)
      outputString sys opts scheduling ".scheduling.csv".toList
    else M.pure ()
    let assignment ← M.lift (Output.writeAssignment p.input sol)
    outputString sys opts assignment ".assignment.csv".toList

variable {F σ : Type}

/-- Which sessions of the solver are considered: from the first state to the last. -/
abbrev Sessions (σ : Type) := (cfg : Setup σ ASolver (σ × Nat)) → Session σ ASolver (σ × Nat) → Session σ ASolver (σ × Nat) → Prop

/-- main.rs:51-129 `try_run` with its effects: the possible results for a script, over the given sessions (`Threaded.Run`: all
interleavings of the workers). -/
inductive TryRunIO (via : Sessions σ) (sys : Sys) (o : Outside F σ) (opts : Opts F) (script : Reader.Script) :
    R Unit × List Effect → Prop
  | rejected {f : Fault} : (Reader.readInput o.opt (Reader.new opts) script).1 = .error f →
      TryRunIO via sys o opts script (.error f, [])
  | unprepared {d : InputData} {f : Fault} : (Reader.readInput o.opt (Reader.new opts) script).1 = .ok d →
      prepare o d (Reader.effectiveOptions (Reader.readInput o.opt (Reader.new opts) script).2) = .error f →
      TryRunIO via sys o opts script (.error f, [])
  | crashed {d : InputData} {p : Prepared} {g : Session σ ASolver (σ × Nat)} {f : Fault} :
      (Reader.readInput o.opt (Reader.new opts) script).1 = .ok d →
      prepare o d (Reader.effectiveOptions (Reader.readInput o.opt (Reader.new opts) script).2) = .ok p →
      via (setup o p (Reader.effectiveOptions (Reader.readInput o.opt (Reader.new opts) script).2))
        (start (setup o p (Reader.effectiveOptions (Reader.readInput o.opt (Reader.new opts) script).2))) g →
      g.over → Threaded.wait g = .error f → TryRunIO via sys o opts script (.error f, [])
  | solved {d : InputData} {p : Prepared} {g : Session σ ASolver (σ × Nat)} {sol : Solution} :
      (Reader.readInput o.opt (Reader.new opts) script).1 = .ok d →
      prepare o d (Reader.effectiveOptions (Reader.readInput o.opt (Reader.new opts) script).2) = .ok p →
      via (setup o p (Reader.effectiveOptions (Reader.readInput o.opt (Reader.new opts) script).2))
        (start (setup o p (Reader.effectiveOptions (Reader.readInput o.opt (Reader.new opts) script).2))) g →
      g.over → Threaded.wait g = .ok sol →
      TryRunIO via sys o opts script
        (handOut sys (Reader.effectiveOptions (Reader.readInput o.opt (Reader.new opts) script).2) p sol [])

/-- main.rs:41-48 and 11-13: the exit status; a panic of the main thread gives 101 (the Rust runtime). -/
def exitCode : R Unit → Nat
  | .ok _ => 0
  | .error (.error _) => 1
  | .error (.panic _) => 101

/-- main.rs:15-49 `run`: exit status and effects. `o` is everything else from outside; its engine is seeded as main.rs:27
does. -/
inductive RunsVia (via : Sessions σ) (sys : Sys) (o : Outside F σ) (parse : Str → Reader.Script) (opts : Opts F) :
    Nat → List Effect → Prop
  | unreadable {f : Fault} : readInputString sys opts = .error f → RunsVia via sys o parse opts (exitCode (.error f)) []
  | ran {text : Str} {r : R Unit × List Effect} : readInputString sys opts = .ok text →
      TryRunIO via sys { o with seed := seedOf sys } opts (parse text) r → RunsVia via sys o parse opts (exitCode r.1) r.2

/-- The runs of the program, over all interleavings of the workers. -/
abbrev Runs (sys : Sys) (o : Outside F σ) (parse : Str → Reader.Script) (opts : Opts F) : Nat → List Effect → Prop :=
  RunsVia (fun cfg => Threaded.Run cfg) sys o parse opts

end Process
end Wassign
