import Verif.Model.Shotgun
/-
threaded_solver.rs and cancellation.rs: the workers, the collection of their results, cancellation, and the
progress reports.

The workers are a state machine whose steps may be interleaved in any order; the cancellation flag
(cancellation.rs, a relaxed atomic) is a Boolean whose reads see the last write. Time is not modelled beyond
"the deadline has or has not passed" at each reading.
-/
namespace Wassign
namespace Threaded
variable {σ τ ρ : Type}

/-- Where a worker is in its loop (threaded_solver.rs:123-132). -/
inductive Phase where
  | check
  | run
  | test (done : Nat)
  | finished
  | panicked
deriving DecidableEq, Repr

/-- A worker thread: threaded_solver.rs:114-135. `started` counts the iterations it has entered (a ghost counter). -/
structure Worker (σ τ ρ : Type) where
  phase : Phase
  st : SState σ τ ρ
  started : Nat

/-- The session: threaded_solver.rs:86-169. -/
structure Session (σ τ ρ : Type) where
  cancelled : Bool
  workers : List (Worker σ τ ρ)

/-- What the workers read of problem and options, and their environments (threaded_solver.rs:107-116; worker `tid`
gets its own engines, clock and sub-solvers). -/
structure Setup (σ τ ρ : Type) where
  problem : HProblem
  any : Bool
  threads : Nat
  env : Nat → SEnv σ τ ρ
  init : Nat → SState σ τ ρ

/-- threaded_solver.rs:88-92: the number of workers. -/
def workerCount (cfg : Setup σ τ ρ) : Nat :=
  if cfg.problem.input.ns = 1 then 1 else max cfg.threads 1

/-- threaded_solver.rs:106-136: all workers spawned, nothing cancelled. -/
def start (cfg : Setup σ τ ρ) : Session σ τ ρ :=
  ⟨false, (List.range (workerCount cfg)).map (fun tid => ⟨.check, cfg.init tid, 0⟩)⟩

/-- threaded_solver.rs:123: the loop condition; `late` is the answer of the clock. -/
def checkStep (cancelled late : Bool) (w : Worker σ τ ρ) : Worker σ τ ρ :=
  if cancelled || late then { w with phase := .finished }
  else { w with
    phase := .run
    started := w.started + 1 }

/-- threaded_solver.rs:124: one iteration; a panic ends the thread. -/
def runStep (cfg : Setup σ τ ρ) (tid : Nat) (w : Worker σ τ ρ) : Worker σ τ ρ :=
  match Shotgun.iterate cfg.problem (cfg.env tid) true 1 w.st with
  | .ok (k, st) => { w with
      phase := .test k
      st := st }
  | .error _ => { w with phase := .panicked }

/-- threaded_solver.rs:125-131: what follows an iteration; the Boolean tells whether the worker cancels the session. -/
def testStep (cfg : Setup σ τ ρ) (tid k : Nat) (w : Worker σ τ ρ) : Bool × Worker σ τ ρ :=
  let st := if cfg.any then Shotgun.progress (cfg.env tid) w.st else w.st
  if cfg.any && st.progress.bestScore.isFinite then (true, { w with
    phase := .finished
    st := st })
  else if cfg.problem.input.ns = 1 ∨ k < 1 then (false, { w with
    phase := .finished
    st := st })
  else (false, { w with
    phase := .check
    st := st })

/-- A step of one worker. -/
inductive Move (cfg : Setup σ τ ρ) : Session σ τ ρ → Session σ τ ρ → Prop
  | check (g : Session σ τ ρ) (tid : Nat) (w : Worker σ τ ρ) (late : Bool) : g.workers[tid]? = some w → w.phase = .check →
      Move cfg g { g with workers := g.workers.set tid (checkStep g.cancelled late w) }
  | run (g : Session σ τ ρ) (tid : Nat) (w : Worker σ τ ρ) : g.workers[tid]? = some w → w.phase = .run →
      Move cfg g { g with workers := g.workers.set tid (runStep cfg tid w) }
  | test (g : Session σ τ ρ) (tid k : Nat) (w : Worker σ τ ρ) : g.workers[tid]? = some w → w.phase = .test k →
      Move cfg g ⟨g.cancelled || (testStep cfg tid k w).1, g.workers.set tid (testStep cfg tid k w).2⟩

/-- One step of the session: any worker may move, and the user may cancel (threaded_solver.rs:186-188) at any time. -/
inductive Step (cfg : Setup σ τ ρ) : Session σ τ ρ → Session σ τ ρ → Prop
  | cancel (g : Session σ τ ρ) : Step cfg g { g with cancelled := true }
  | move {g g' : Session σ τ ρ} : Move cfg g g' → Step cfg g g'

/-- Any number of steps. -/
inductive Run (cfg : Setup σ τ ρ) : Session σ τ ρ → Session σ τ ρ → Prop
  | refl (g : Session σ τ ρ) : Run cfg g g
  | step {g g' g'' : Session σ τ ρ} : Run cfg g g' → Step cfg g' g'' → Run cfg g g''

/-- A given number of worker moves. -/
inductive Moves (cfg : Setup σ τ ρ) : Nat → Session σ τ ρ → Session σ τ ρ → Prop
  | zero (g : Session σ τ ρ) : Moves cfg 0 g g
  | succ {n : Nat} {g g' g'' : Session σ τ ρ} : Moves cfg n g g' → Move cfg g' g'' → Moves cfg (n + 1) g g''

/-- The session is over when every worker thread has ended. -/
def Session.over (g : Session σ τ ρ) : Prop := ∀ w ∈ g.workers, w.phase = .finished ∨ w.phase = .panicked

/-- threaded_solver.rs:143-149: one joined worker. `handle.join().expect(..)` panics for a panicked worker; line 134
returns the progress. -/
def joinStep (acc : Solution × Score) (w : Worker σ τ ρ) : R (Solution × Score) :=
  if w.phase = .panicked then panic' "worker should not panic"
  else pure (if Score.lt w.st.progress.bestScore acc.2 then (w.st.progress.bestSolution, w.st.progress.bestScore) else acc)

/-- threaded_solver.rs:138-150: the result of the solver thread once the workers have ended. -/
def collect (g : Session σ τ ρ) : R Solution := do
  let r ← g.workers.foldlM joinStep (Solution.invalid, Score.infinite)
  pure r.1

/-- threaded_solver.rs:267-272 `wait`: a panic of the solver thread becomes `InputError::WorkerPanic` (the panic
message of `expect` is `worker should not panic: ..`). -/
def wait (g : Session σ τ ρ) : R Solution :=
  match collect g with
  | .ok s => .ok s
  | .error _ => .error (.error "WorkerPanic")

/-! ### Progress reports -/

/-- threaded_solver.rs:13-23 `ThreadedSolverProgress`, without the display-only depth and the remaining time. -/
abbrev Report := Progress

/-- threaded_solver.rs:206-225: enter one event into the progress of its worker. -/
def absorb (p : Progress) (e : Event) : Progress :=
  let p := match e.iterations with
    | some n => { p with iterations := n }
    | none => p
  let p := match e.assignments with
    | some n => { p with assignments := n }
    | none => p
  let p := match e.lp with
    | some n => { p with lp := n }
    | none => p
  match e.bestScore, e.bestSolution with
  | some sc, some sol => if Score.lt sc p.bestScore then { p with
      bestScore := sc
      bestSolution := sol } else p
  | _, _ => p

/-- threaded_solver.rs:205-227: one event; an unknown worker index is ignored. -/
def deliver (tp : List Progress) (e : Event) : List Progress :=
  match tp[e.worker]? with
  | some p => tp.set e.worker (absorb p e)
  | none => tp

/-- threaded_solver.rs:229-255: the summary over the workers (sums of `usize` counters, whose overflow is not modelled). -/
def summarize (tp : List Progress) : Report :=
  tp.foldl (fun r p =>
    let r := if Score.lt p.bestScore r.bestScore then { r with
      bestScore := p.bestScore
      bestSolution := p.bestSolution } else r
    { r with
      iterations := r.iterations + p.iterations
      assignments := r.assignments + p.assignments
      lp := r.lp + p.lp }) .empty

/-- threaded_solver.rs:190-259 `progress`: the events that have arrived since the last call are taken from the
channel; the result is the report and the new per-worker progress. -/
def poll (tp : List Progress) (evs : List Event) : Report × List Progress :=
  let tp := evs.foldl deliver tp
  (summarize tp, tp)

/-- threaded_solver.rs:96: before the first poll. -/
def freshProgress (n : Nat) : List Progress := List.replicate n .empty

end Threaded
end Wassign
