import Verif.Model.HillClimbing
import Verif.Spec.Solution
/-
Vocabulary for statements about searching and reporting.
-/
namespace Wassign.Spec
open Wassign

/-- The (solution, score) announcements among some events. -/
def announced (l : List Event) : List (Solution × Score) := l.filterMap Event.best?

/-- What hill climbing asks of an assignment solver: it keeps an invariant of its own, and the assignments it
returns have the right dimensions. (Nothing is asked about their validity or quality.) -/
structure Shaped {τ : Type} (i : InputData) (asolve : τ → Scheduling → R (Option Assignment × τ)) (Inv : τ → Prop) : Prop where
  keeps : ∀ t s r t', Inv t → SchedShape i s → asolve t s = .ok (r, t') → Inv t'
  shape : ∀ t s a t', Inv t → SchedShape i s → asolve t s = .ok (some a, t') → Shape i s a

/-- What is asked of the assignment solver for hill climbing to run through: on feasible schedulings it returns, and
what it returns is valid. -/
structure Solid {τ : Type} (i : InputData) (asolve : τ → Scheduling → R (Option Assignment × τ)) (Inv : τ → Prop) : Prop where
  total : ∀ t s, Inv t → SchedShape i s → SchedValid i s → ∃ r t', asolve t s = .ok (r, t')
  keeps : ∀ t s r t', Inv t → SchedShape i s → asolve t s = .ok (r, t') → Inv t'
  valid : ∀ t s a t', Inv t → SchedShape i s → SchedValid i s → asolve t s = .ok (some a, t') → Shape i s a ∧ Valid i s a
  shape : ∀ t s a t', Inv t → SchedShape i s → asolve t s = .ok (some a, t') → Shape i s a

end Wassign.Spec
