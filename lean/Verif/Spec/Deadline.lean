import Verif.Model.Threaded
/-
Vocabulary for statements about the time limit. A clock is given by its answers: `late n` is the answer to the n-th
question whether the deadline has passed.
-/
namespace Wassign.Spec
open Wassign Threaded
variable {σ τ ρ : Type}

/-- From the n-th question on the clock says that the deadline has passed. -/
def Overdue (late : Nat → Bool) (n : Nat) : Prop := ∀ t, n ≤ t → late t = true

/-- How many of the first n questions were answered "not yet". -/
def early (late : Nat → Bool) (n : Nat) : Nat := (List.range n).countP (fun t => !late t)

/-- A step of a worker after the deadline. -/
inductive LateMove (cfg : Setup σ τ ρ) : Session σ τ ρ → Session σ τ ρ → Prop
  | check (g : Session σ τ ρ) (tid : Nat) (w : Worker σ τ ρ) : g.workers[tid]? = some w → w.phase = .check →
      LateMove cfg g { g with workers := g.workers.set tid (checkStep g.cancelled true w) }
  | run (g : Session σ τ ρ) (tid : Nat) (w : Worker σ τ ρ) : g.workers[tid]? = some w → w.phase = .run →
      LateMove cfg g { g with workers := g.workers.set tid (runStep cfg tid w) }
  | test (g : Session σ τ ρ) (tid k : Nat) (w : Worker σ τ ρ) : g.workers[tid]? = some w → w.phase = .test k →
      LateMove cfg g ⟨g.cancelled || (testStep cfg tid k w).1, g.workers.set tid (testStep cfg tid k w).2⟩

/-- A given number of steps of workers after the deadline; the user may cancel in between. -/
inductive LateMoves (cfg : Setup σ τ ρ) : Nat → Session σ τ ρ → Session σ τ ρ → Prop
  | zero (g : Session σ τ ρ) : LateMoves cfg 0 g g
  | succ {n : Nat} {g g' g'' : Session σ τ ρ} : LateMoves cfg n g g' → LateMove cfg g' g'' → LateMoves cfg (n + 1) g g''
  | cancel {n : Nat} {g g' : Session σ τ ρ} : LateMoves cfg n g g' → LateMoves cfg n g { g' with cancelled := true }

/-- The deadline has passed for all workers. -/
def AllOverdue (cfg : Setup σ τ ρ) (g : Session σ τ ρ) : Prop :=
  ∀ (tid : Nat) (w : Worker σ τ ρ), g.workers[tid]? = some w → Overdue (cfg.env tid).lateS w.st.ticks

end Wassign.Spec
