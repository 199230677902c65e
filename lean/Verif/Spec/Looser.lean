import Verif.Model.InputBuilder
import Mathlib.Data.List.Forall2
/-
When an input asks for less than another one.
-/
namespace Wassign.Spec

/-- The same choice with the same number of parts, but with a smaller minimum, a larger maximum, or optional. -/
structure LooserChoice (p q : Proto) : Prop where
  name : q.name = p.name
  parts : q.parts = p.parts
  min : q.min ≤ p.min
  max : p.max ≤ q.max
  optional : p.optional = true → q.optional = true

/-- The input `q` asks for less than `p`: it has the same slots and the same choosers (whatever their wishes are), the same choices
with looser limits, and some of the constraints. -/
structure Looser (p q : Raw) : Prop where
  slots : q.slots = p.slots
  names : q.choosers.map (·.name) = p.choosers.map (·.name)
  wishes : ∀ c ∈ q.choosers, c.prefs.length = q.choices.length
  choices : List.Forall₂ LooserChoice p.choices q.choices
  exprs : q.exprs.Sublist p.exprs

end Wassign.Spec
