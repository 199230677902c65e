import Verif.Spec.Solution
import Verif.Spec.WF
import Verif.Spec.Connected
/-
Constraints as written, before normalisation.
-/
namespace Wassign.Spec

/-- A constraint as produced from an expression or from parts: right kind of operands, in range. -/
def WrittenWF (i : InputData) (c : Constraint) : Prop :=
  match c.kind, c.right, c.extra with
  | .choiceIsInSlot, .slot t, _ => c.left < i.nc ∧ t < i.ns
  | .choiceIsNotInSlot, .slot t, _ => c.left < i.nc ∧ t < i.ns
  | .choicesAreInSameSlot, .choice y, _ => c.left < i.nc ∧ y < i.nc
  | .choicesAreNotInSameSlot, .choice y, _ => c.left < i.nc ∧ y < i.nc
  | .choicesHaveOffset, .choice y, .offset _ => c.left < i.nc ∧ y < i.nc
  | .slotHasLimitedSize, .limit _, .limitOp _ => c.left < i.ns
  | .slotContainsChoice, .choice y, _ => c.left < i.ns ∧ y < i.nc
  | .slotNotContainsChoice, .choice y, _ => c.left < i.ns ∧ y < i.nc
  | .slotsHaveSameChoices, .slot t, _ => c.left < i.ns ∧ t < i.ns
  | .choicesHaveSameChoosers, .choice y, _ => c.left < i.nc ∧ y < i.nc
  | .chooserIsInChoice, .choice y, _ => c.left < i.np ∧ y < i.nc
  | .chooserIsNotInChoice, .choice y, _ => c.left < i.np ∧ y < i.nc
  | .choosersHaveSameChoices, .chooser q, _ => c.left < i.np ∧ q < i.np
  | .choiceContainsChooser, .chooser p, _ => c.left < i.nc ∧ p < i.np
  | .choiceNotContainsChooser, .chooser p, _ => c.left < i.nc ∧ p < i.np
  | _, _, _ => False

instance (i : InputData) (c : Constraint) : Decidable (WrittenWF i c) := by
  unfold WrittenWF; split <;> infer_instance

/-- The (chooser, choice) pair a written constraint demands. -/
def demand? (c : Constraint) : Option (Nat × Nat) :=
  match c.kind, c.right with
  | .chooserIsInChoice, .choice y => some (c.left, y)
  | .choiceContainsChooser, .chooser p => some (p, c.left)
  | _, _ => none

/-- Two choices are directly required to have the same choosers. -/
def SameLink (cons : List Constraint) (a b : Nat) : Prop :=
  ∃ c ∈ cons, c.kind = .choicesHaveSameChoosers ∧ c.left = a ∧ c.right = .choice b

/-- Nobody attends two choices in one slot, and everybody attends one in each slot: `OnePerSlot` and
`OnlyScheduled`. Every choice takes place and has a participant. -/
structure Populated (i : InputData) (s : Scheduling) (a : Assignment) : Prop where
  onePerSlot : OnePerSlot i s a
  scheduled : ∀ c, c < i.nc → ∃ t, t < i.ns ∧ slotAt s c = some t
  attended : ∀ c, c < i.nc → ∃ p, p < i.np ∧ Attends a p c

end Wassign.Spec
