import Verif.Model.InputBuilder
import Verif.Spec.Solution
import Mathlib.Logic.Equiv.Defs
/-
The same input with the slots in another order.
-/
namespace Wassign.Spec

/-- The input `q` lists the slots of `p` in another order: number `t` of `q` is number `g t` of `p`. -/
structure SlotsReordered (g : Equiv.Perm Nat) (p q : Raw) : Prop where
  choices : q.choices = p.choices
  choosers : q.choosers = p.choosers
  exprs : q.exprs = p.exprs
  some : p.slots ≠ []
  number : q.slots.length = p.slots.length
  slots : ∀ t, q.slots[t]? = p.slots[g t]?

/-- The same scheduling with the slots renumbered. -/
def TimesReordered (g : Equiv.Perm Nat) (s s' : Scheduling) : Prop := ∀ c, slotAt s' c = (slotAt s c).map g.symm

/-- The same assignment with the columns in another order. -/
def ColumnsReordered (g : Equiv.Perm Nat) (a a' : Assignment) : Prop := ∀ p t, entry a' p t = entry a p (g t)

/-- Every choice has only one part. -/
def SingleParts (raw : Raw) : Prop := ∀ p ∈ raw.choices, p.parts ≤ 1

end Wassign.Spec
