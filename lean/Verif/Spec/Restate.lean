import Verif.Model.InputBuilder
import Mathlib.Data.List.Perm.Basic
/-
The same input with the constraints stated in another order, or some of them more often.
-/
namespace Wassign.Spec

/-- The statement demands that a chooser attends a choice ("choices(person) contains choice" or "choosers(choice) contains person", on
either side of the relation). -/
def asksAttendance (e : CExpr) : Bool := e.rel == .contains && (e.left.kind == .chooser || e.right.kind == .chooser)

/-- The input `q` states the constraints of `p`: in any order, all of them, and nothing else; and those that demand attendance as often as `p`
does. -/
structure Restated (p q : Raw) : Prop where
  slots : q.slots = p.slots
  choices : q.choices = p.choices
  choosers : q.choosers = p.choosers
  statements : ∀ e, e ∈ q.exprs ↔ e ∈ p.exprs
  attendance : (q.exprs.filter asksAttendance).Perm (p.exprs.filter asksAttendance)

end Wassign.Spec
