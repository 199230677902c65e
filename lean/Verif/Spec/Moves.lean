import Verif.Spec.Solution
/-
What a neighbour of a scheduling is.
-/
namespace Wassign.Spec

/-- `s'` differs from `s` in the slot (or omission) of exactly one choice. -/
def SingleMove (i : InputData) (s s' : Scheduling) : Prop :=
  SchedShape i s' ∧ ∃ c, c < i.nc ∧ slotAt s' c ≠ slotAt s c ∧ ∀ c', c' ≠ c → slotAt s' c' = slotAt s c'

end Wassign.Spec
