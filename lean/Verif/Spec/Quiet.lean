import Verif.Model.Threaded
/-
Vocabulary for statements about sessions: undisturbed sessions, and what a worker has done after some iterations.
-/
namespace Wassign.Spec
open Wassign Threaded
variable {σ τ ρ : Type}

/-- A step of a worker that does not find the deadline passed at the head of its loop. -/
inductive Prompt (cfg : Setup σ τ ρ) : Session σ τ ρ → Session σ τ ρ → Prop
  | check (g : Session σ τ ρ) (tid : Nat) (w : Worker σ τ ρ) : g.workers[tid]? = some w → w.phase = .check →
      Prompt cfg g { g with workers := g.workers.set tid (checkStep g.cancelled false w) }
  | run (g : Session σ τ ρ) (tid : Nat) (w : Worker σ τ ρ) : g.workers[tid]? = some w → w.phase = .run →
      Prompt cfg g { g with workers := g.workers.set tid (runStep cfg tid w) }
  | test (g : Session σ τ ρ) (tid k : Nat) (w : Worker σ τ ρ) : g.workers[tid]? = some w → w.phase = .test k →
      Prompt cfg g ⟨g.cancelled || (testStep cfg tid k w).1, g.workers.set tid (testStep cfg tid k w).2⟩

/-- An undisturbed run: nobody cancels from outside, and no worker finds the deadline passed at the head of its loop. -/
inductive Undisturbed (cfg : Setup σ τ ρ) : Session σ τ ρ → Session σ τ ρ → Prop
  | refl (g : Session σ τ ρ) : Undisturbed cfg g g
  | step {g g' g'' : Session σ τ ρ} : Undisturbed cfg g g' → Prompt cfg g' g'' → Undisturbed cfg g g''

/-- A reason for which an iteration of worker `tid` ends without a solution: the clock, or its search has no scheduling
to offer. -/
def Dry (cfg : Setup σ τ ρ) (tid : Nat) (w : Worker σ τ ρ) : Prop :=
  (∃ t, (cfg.env tid).lateS t = true) ∨ ∃ r, (cfg.env tid).next r = .ok (none, w.st.sched)

end Wassign.Spec
