import Verif.Model.HillClimbing
/-
shotgun_solver.rs: one worker's search, alternating scheduling search and hill climbing.
-/
namespace Wassign

/-- shotgun_solver.rs:7-15 `ShotgunSolverProgress` (without the display-only `sched_depth`). -/
structure Progress where
  iterations : Nat
  assignments : Nat
  lp : Nat
  bestSolution : Solution
  bestScore : Score

/-- shotgun_solver.rs:144-154 and threaded_solver.rs:275-287 `empty_progress`. -/
def Progress.empty : Progress :=
  ⟨0, 0, 0, .invalid, Score.infinite⟩

/-- What surrounds a worker: `next` is `SchedulingSolver::next_scheduling` for the given deadline followed by
`scheduling()` (any behaviour is allowed here), `lateS n` is
the answer to the n-th question whether the deadline has passed. -/
structure SEnv (σ τ ρ : Type) extends HEnv σ τ where
  next : ρ → R (Option Scheduling × ρ)
  lateS : Nat → Bool

/-- shotgun_solver.rs:109-116: the state of a worker; `ticks` counts its own clock readings. -/
structure SState (σ τ ρ : Type) where
  sched : ρ
  hill : HState σ τ
  progress : Progress
  ticks : Nat

namespace Shotgun
variable {σ τ ρ : Type}

/-- shotgun_solver.rs:119-156 `new_with_seed`: a fresh worker (the engines are seeded by the caller). -/
def new (sched : ρ) (rng : σ) (asg : τ) : SState σ τ ρ :=
  ⟨sched, ⟨rng, asg, 0, 0, []⟩, .empty, 0⟩

/-- shotgun_solver.rs:158-164 `progress`. -/
def progress (env : SEnv σ τ ρ) (st : SState σ τ ρ) : SState σ τ ρ :=
  { st with progress := { st.progress with
      assignments := st.hill.count
      lp := env.lpOf st.hill.asg } }

/-- A clock reading (shotgun_solver.rs:173). -/
def clock (env : SEnv σ τ ρ) (deadline : Bool) (st : SState σ τ ρ) : Bool × SState σ τ ρ :=
  if deadline then (env.lateS st.ticks, { st with ticks := st.ticks + 1 }) else (false, st)

/-- shotgun_solver.rs:193-199: keep the better solution and announce it. -/
def record (env : SEnv σ τ ρ) (sol : Solution) (sc : Score) (st : SState σ τ ρ) : SState σ τ ρ :=
  if Score.lt sc st.progress.bestScore then
    { st with
      progress := { st.progress with
        bestSolution := sol
        bestScore := sc }
      hill := Hill.publish st.hill (Event.ofBest env.worker sol sc) }
  else st

/-- shotgun_solver.rs:201-203: count the iteration and report it. -/
def tick (env : SEnv σ τ ρ) (st : SState σ τ ρ) : SState σ τ ρ :=
  { st with
    progress := { st.progress with iterations := st.progress.iterations + 1 }
    hill := Hill.publish st.hill (Event.ofIterations env.worker (st.progress.iterations + 1)) }

/-- shotgun_solver.rs:166-208 `iterate`; the result is the number of completed iterations. -/
def iterate (pr : HProblem) (env : SEnv σ τ ρ) (deadline : Bool) : Nat → SState σ τ ρ → R (Nat × SState σ τ ρ)
  | 0, st => pure (0, st)
  | n + 1, st =>
    let c := clock env deadline st
    if c.1 then pure (0, c.2)
    else do
      let x ← env.next c.2.sched
      match x.1 with
      | none => pure (0, { c.2 with sched := x.2 })
      | some s => do
        let h ← Hill.solve pr env.toHEnv deadline c.2.hill s
        let sc ← pr.scoring.evaluate pr.input h.1
        let st1 := tick env (record env h.1 sc { c.2 with
          sched := x.2
          hill := h.2 })
        let r ← iterate pr env deadline n st1
        pure (r.1 + 1, r.2)

end Shotgun
end Wassign
