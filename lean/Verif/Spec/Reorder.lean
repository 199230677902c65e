import Verif.Model.InputBuilder
import Mathlib.Logic.Equiv.Defs
/-
The same input with the choosers in another order.
-/
namespace Wassign.Spec

/-- The input `q` lists the choosers of `p` in another order: number `i` of `q` is number `g i` of `p`. -/
structure Reordered (g : Equiv.Perm Nat) (p q : Raw) : Prop where
  slots : q.slots = p.slots
  choices : q.choices = p.choices
  exprs : q.exprs = p.exprs
  number : q.choosers.length = p.choosers.length
  choosers : ∀ i, q.choosers[i]? = p.choosers[g i]?

/-- The same assignment with the rows in another order. -/
def RowsReordered (g : Equiv.Perm Nat) (a a' : Assignment) : Prop := ∀ i, a'[i]? = a[g i]?

end Wassign.Spec
