import Verif.Spec.Solution
import Verif.Spec.Connected
import Verif.Spec.Written
/-
What the assignment stage is supposed to deliver for a fixed scheduling.
-/
namespace Wassign.Spec

/-- A valid assignment for scheduling `s`: the parts of `Valid` that concern the assignment. -/
structure AsgValid (i : InputData) (s : Scheduling) (a : Assignment) : Prop where
  onePerSlot : OnePerSlot i s a
  onlyScheduled : OnlyScheduled i s a
  bounds : WithinBounds i s a
  asg : ∀ c ∈ i.asgCons, AsgHolds s a c

/-- Nobody attends a choice with a preference value worse than `limit`. -/
def WithinLimit (i : InputData) (a : Assignment) (limit : Nat) : Prop :=
  ∀ p c x, Attends a p c → pref i p c = some x → x ≤ limit

/-- The total cost: the sum, over all choosers and the choices they attend, of the cost of the preference. -/
def totalCost (i : InputData) (cost : Nat → Int) (a : Assignment) : Int :=
  ((List.range i.np).map (fun p => ((List.range i.nc).map (fun c =>
    if attendsB a p c = true then cost ((pref i p c).getD 0) else 0)).sum)).sum

/-- The table of an assignment has one row per chooser and one column per slot, and the entry in column `t`
takes place in slot `t`. -/
structure InOrder (i : InputData) (s : Scheduling) (a : Assignment) : Prop where
  rows : a.length = i.np
  cols : ∀ r ∈ a, r.length = i.ns
  slot : ∀ p t c, entry a p t = some c → slotAt s c = some t

/-- What the dependency groups of an input mean (C48): they consist of choices and are the connected
components of the same-choosers constraints. -/
structure GroupsMean (i : InputData) : Prop where
  range : ∀ g ∈ i.depGroups, ∀ c ∈ g, c < i.nc
  connected : ∀ a b, a < i.nc → b < i.nc →
    ((∃ g ∈ i.depGroups, a ∈ g ∧ b ∈ g) ↔ Connected (SameLink i.asgCons) a b)

/-- Scheduled choices that are connected by same-choosers constraints are connected through scheduled
choices (in particular when all choices of a group are scheduled, or none). -/
def LinksScheduled (i : InputData) (s : Scheduling) : Prop :=
  ∀ a b, slotAt s a ≠ none → slotAt s b ≠ none → Connected (SameLink i.asgCons) a b →
    Connected (fun x y => SameLink i.asgCons x y ∧ slotAt s x ≠ none ∧ slotAt s y ≠ none) a b

end Wassign.Spec
