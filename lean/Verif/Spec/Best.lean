import Verif.Spec.Score
import Verif.Spec.Solution
import Verif.Model.Threaded
/-
Vocabulary for statements about "the best solution so far".
-/
namespace Wassign.Spec
open Wassign

/-- `b` is a right answer to "what is the best of these scored solutions?": the Invalid solution with the infinite
score if none of them has a finite score, otherwise one of them, with a finite score that is at most all others. -/
def IsBest (seen : List (Solution × Score)) (b : Solution × Score) : Prop :=
  (b = (.invalid, Score.infinite) ∧ ∀ x ∈ seen, x.2.isFinite = false) ∨
  (b ∈ seen ∧ b.2.isFinite = true ∧ ∀ x ∈ seen, b.2.le x.2)

/-- All finite scores among them are of one mode (greedy or not), as the scores of one problem are. -/
def OneMode (g : Bool) (seen : List (Solution × Score)) : Prop := ∀ x ∈ seen, x.2.InMode g

variable {σ τ ρ : Type}

/-- One iteration of a worker, without its bookkeeping: a scheduling is supplied, hill climbing turns it into a
solution, and the solution is scored. -/
structure Iteration (pr : HProblem) (env : SEnv σ τ ρ) (deadline : Bool) (r : ρ) (h : HState σ τ) (x : Solution × Score)
    (r' : ρ) (h' : HState σ τ) : Prop where
  out : ∃ s, env.next r = .ok (some s, r') ∧ Hill.solve pr env.toHEnv deadline h s = .ok (x.1, h') ∧
    pr.scoring.evaluate pr.input x.1 = .ok x.2

/-- Two states of the hill climbing solver that differ only in the messages sent. -/
def SameSolver (h h' : HState σ τ) : Prop :=
  h.rng = h'.rng ∧ h.asg = h'.asg ∧ h.count = h'.count ∧ h.ticks = h'.ticks

/-- What a worker found in a sequence of iterations (and of attempts that yielded no scheduling), and the states of its
two sub-solvers at the ends. -/
inductive History (pr : HProblem) (env : SEnv σ τ ρ) (deadline : Bool) :
    ρ → HState σ τ → List (Solution × Score) → ρ → HState σ τ → Prop
  | none {r : ρ} {h h' : HState σ τ} : SameSolver h h' → History pr env deadline r h [] r h'
  | more {r r' r'' : ρ} {h h1 h2 h' : HState σ τ} {seen : List (Solution × Score)} {x : Solution × Score} :
      History pr env deadline r h seen r' h1 → Iteration pr env deadline r' h1 x r'' h2 → SameSolver h2 h' →
      History pr env deadline r h (seen ++ [x]) r'' h'
  | dry {r r' r'' : ρ} {h h' : HState σ τ} {seen : List (Solution × Score)} : History pr env deadline r h seen r' h' →
      env.next r' = .ok (Option.none, r'') → History pr env deadline r h seen r'' h'

/-- What is asked of the scheduling solver of a worker: it keeps an invariant of its own and supplies schedulings of
the right dimensions in which every choice that is not optional takes place. -/
structure Supplies (i : InputData) (next : ρ → R (Option Scheduling × ρ)) (Inv : ρ → Prop) : Prop where
  keeps : ∀ r x r', Inv r → next r = .ok (x, r') → Inv r'
  shape : ∀ r s r', Inv r → next r = .ok (some s, r') → SchedShape i s
  placed : ∀ r s r', Inv r → next r = .ok (some s, r') → Placed i s

end Wassign.Spec
