import Verif.Model.Float
import Verif.Model.Threaded
import Verif.Model.SchedulingSolver
import Verif.Model.CriticalSets
import Verif.Model.AssignmentSolver
import Verif.Model.Reader
import Verif.Model.Output
/-
main.rs and prepared_problem.rs: the whole program, from the script to the printed tables, with the real sub-solvers of
every worker (shotgun_solver.rs:119-156, threaded_solver.rs:86-169).

Not modelled: reading the script text (the script is an interaction with the interface, see Reader.lean), the status
messages, the warning about large exponents (main.rs:70-78, no effect), the file system (see Process.lean:
here what is handed to `output_string` is the result).
-/
namespace Wassign

/-- scheduling_solver.rs:103-173 as the scheduling source of a worker: the state is the random engine and the number of
searches so far (which picks the answers of the clock). The conversion of the time limit (lines 121-129) panics for a
negative number of seconds in the first turn in which the limit is not the greatest preference, which is the first turn if
there is one at all. -/
def source {σ : Type} (g : RngOps σ) (i : InputData) (csTimeout : Int) (bound : Nat) (sets : Nat → List CriticalSet)
    (late : Nat → Nat → Nat → Bool) (r : σ × Nat) : R (Option Scheduling × (σ × Nat)) := do
  let d ← nextInRange g r.1 0 Search.prefRelaxation
  if d.1 ≠ 0 ∧ bound ≠ i.maxPref ∧ csTimeout < 0 then panic' "critical set timeout must be non-negative"
  else do
    let x ← Search.nextScheduling g i bound sets (late r.2) r.1
    pure (x.1, (x.2, r.2 + 1))

namespace Main
open Threaded

/-- Everything the program gets from outside, except script and options: parsing of floating point numbers and the
overflow behaviour of the build (`opt`), the functions `f32::powf` (`powf`) and `f64 as f32` (`toF32`), the cost of a preference
(`cost`: assignment_solver.rs:399-401) as a function of the preference exponent, the random engine and the seed (main.rs:16-27),
the model's bound `draws` on repeated draws, and per worker the MIP backend and all the answers of the clock. -/
structure Outside (F σ : Type) where
  opt : OptEnv F
  powf : F32 → F32 → F32
  toF32 : F → F32
  cost : F → Nat → Int
  rng : RngOps σ
  engine : BitVec 64 → σ
  seed : BitVec 64
  draws : Nat
  backend : Nat → Nat → MipFlow → Bool → Option (List Int)
  lateAsg : Nat → Nat → Bool
  lateHill : Nat → Nat → Bool
  lateIter : Nat → Nat → Bool
  lateSearch : Nat → Nat → Nat → Nat → Bool

/-- prepared_problem.rs:5-14 `PreparedProblem`. -/
structure Prepared where
  input : InputData
  analysis : Analysis
  static : StaticData
  scoring : Scoring

variable {F σ : Type}

/-- scoring.rs:13-25 `Scoring::new`. -/
def newScoring (o : Outside F σ) (i : InputData) (opts : Opts F) : Scoring :=
  ⟨opts.greedy, Scoring.minorSum o.powf (o.toF32 opts.prefExp) i.maxPref⟩

/-- prepared_problem.rs:19-34 `PreparedProblem::new`. -/
def prepare (o : Outside F σ) (i : InputData) (opts : Opts F) : R Prepared := do
  let analyze := !opts.noCs && !opts.greedy && decide (1 < i.ns)
  let simplify := analyze && !opts.noCsSimp
  let analysis ← Analysis.new i analyze simplify
  let static ← StaticData.new i
  pure ⟨i, analysis, static, newScoring o i opts⟩

/-- What the assignment solver of a worker reads (assignment_solver.rs:48-63). -/
def asgProblem (o : Outside F σ) (p : Prepared) (opts : Opts F) : AProblem :=
  ⟨p.input, p.analysis.preferenceBound, p.static, opts.greedy, o.cost opts.prefExp⟩

/-- The backend and the clock of worker `tid`'s assignment solver. -/
def asgEnv (o : Outside F σ) (tid : Nat) : AEnv := ⟨o.backend tid, o.lateAsg tid⟩

/-- threaded_solver.rs:98-100: the seed of worker `tid` (rng.rs:43-46). -/
def workerSeed (o : Outside F σ) (tid : Nat) : BitVec 64 := mixSeed o.seed (BitVec.ofNat 64 tid)

/-- threaded_solver.rs:106-122 and shotgun_solver.rs:119-156: the workers with their sub-solvers. -/
def setup (o : Outside F σ) (p : Prepared) (opts : Opts F) : Setup σ ASolver (σ × Nat) where
  problem := ⟨p.input, p.scoring, opts.maxNeighbors⟩
  any := opts.any
  threads := opts.threads
  env := fun tid => {
    worker := tid
    rng := o.rng
    draws := o.draws
    asolve := Asg.solveUntil (asgProblem o p opts) (asgEnv o tid) true
    late := o.lateHill tid
    lpOf := fun sv => sv.lpCount
    next := source o.rng p.input opts.csTimeout p.analysis.preferenceBound p.analysis.forPreference (o.lateSearch tid)
    lateS := o.lateIter tid }
  init := fun tid => Shotgun.new (o.engine (workerSeed o tid), 0) (o.engine (workerSeed o tid + 1)) ASolver.new

/-- What the program hands out: nothing, or the assignment and (for several slots) the scheduling. -/
inductive Output where
  | noSolution
  | tables (scheduling : Option Str) (assignment : Str)
deriving DecidableEq, Repr

/-- main.rs:106-128: what follows the solver session. -/
def report (p : Prepared) (g : Session σ ASolver (σ × Nat)) : R Output := do
  let sol ← Threaded.wait g
  if sol.isInvalid then pure .noSolution
  else do
    let _ ← p.scoring.evaluate p.input sol
    let sch ← if 1 < p.input.ns then (do let x ← Output.writeScheduling p.input sol; pure (some x)) else pure none
    let asg ← Output.writeAssignment p.input sol
    pure (.tables sch asg)

/-- main.rs:51-129 `try_run`: the possible results for a script, over all interleavings of the workers. -/
inductive TryRun (o : Outside F σ) (opts : Opts F) (script : Reader.Script) : R Output → Prop
  | rejected {f : Fault} : (Reader.readInput o.opt (Reader.new opts) script).1 = .error f → TryRun o opts script (.error f)
  | unprepared {d : InputData} {f : Fault} : (Reader.readInput o.opt (Reader.new opts) script).1 = .ok d →
      prepare o d (Reader.effectiveOptions (Reader.readInput o.opt (Reader.new opts) script).2) = .error f →
      TryRun o opts script (.error f)
  | solved {d : InputData} {p : Prepared} {g : Session σ ASolver (σ × Nat)} :
      (Reader.readInput o.opt (Reader.new opts) script).1 = .ok d →
      prepare o d (Reader.effectiveOptions (Reader.readInput o.opt (Reader.new opts) script).2) = .ok p →
      Run (setup o p (Reader.effectiveOptions (Reader.readInput o.opt (Reader.new opts) script).2))
        (start (setup o p (Reader.effectiveOptions (Reader.readInput o.opt (Reader.new opts) script).2))) g →
      g.over → TryRun o opts script (report p g)

end Main
end Wassign
