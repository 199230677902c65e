import Verif.Spec.Best
/-
Everything the assignment solver has answered.
-/
namespace Wassign.Spec
open Wassign

variable {σ τ : Type}

/-- The solution that an answer of the assignment solver stands for: without an assignment it is only a scheduling. -/
def answer (n : Scheduling) : Option Assignment → Solution
  | some a => .complete n a
  | none => .scheduling n

/-- `xs` are the answers, with their scores, that the assignment solver gave one after the other while its state went
from the first to the second one. -/
inductive Answers (pr : HProblem) (env : HEnv σ τ) : τ → List (Solution × Score) → τ → Prop
  | none (t : τ) : Answers pr env t [] t
  | more {t t' t'' : τ} {xs : List (Solution × Score)} {n : Scheduling} {r : Option Assignment} {sc : Score} :
      Answers pr env t xs t' → env.asolve t' n = .ok (r, t'') → pr.scoring.evaluate pr.input (answer n r) = .ok sc →
      Answers pr env t (xs ++ [(answer n r, sc)]) t''

end Wassign.Spec
