import Verif.Model.SchedulingSolver
/-
Vocabulary for statements about the search depth that is shown.
-/
namespace Wassign.Spec
open Wassign

/-- How many choices have been decided on: put into a slot or left out. -/
def numberDecided (decisions : List Decision) : Nat := decisions.countP (fun d => decide (d ≠ .undecided))

/-- A number that begins at 0 and changes by at most one at a time. -/
def Walk (l : List Nat) : Prop :=
  (l = [] ∨ l.head? = some 0) ∧ ∀ k a b, l[k]? = some a → l[k + 1]? = some b → b ≤ a + 1 ∧ a ≤ b + 1

/-- The last number reported for worker `w` (0 if there is none); a report is a worker and a number. -/
def latest (reports : List (Nat × Nat)) (w : Nat) : Nat := ((reports.filter (fun e => decide (e.1 = w))).getLast?.map (·.2)).getD 0

end Wassign.Spec
