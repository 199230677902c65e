import Verif.Spec.Rejected
import Mathlib.Data.List.Forall2
/-
The same constraints in other words.
-/
namespace Wassign.Spec

/-- Two sides of constraints stand for the same thing: the same quality of the same object, which both name unambiguously, perhaps in
different ways (for instance by an abbreviation and by the full name), or the same number. -/
structure SameThing (raw : Raw) (a b : Accessor) : Prop where
  kind : b.kind = a.kind
  sub : b.sub = a.sub
  part : b.part = a.part
  object : ByName a.kind → ∃ i, OnlyName a.name (namesFor raw a.kind) i ∧ OnlyName b.name (namesFor raw a.kind) i
  number : ¬ ByName a.kind → b.name = a.name

/-- The statement `f` says the same as `e`: literally, or with the same things on its sides and the same relation sign between them, in one order or the other.
(The sign is not mirrored: for the program, `5 >= slot.size` is the same as `slot.size >= 5`; see DESIGN.md, finding 6.) -/
inductive Reworded (raw : Raw) (e : CExpr) : CExpr → Prop
  | same : Reworded raw e e
  | names {f : CExpr} : f.rel = e.rel → SameThing raw e.left f.left → SameThing raw e.right f.right → Reworded raw e f
  | turned {f : CExpr} : f.rel = e.rel → SameThing raw e.left f.right → SameThing raw e.right f.left → Reworded raw e f

/-- The input `q` is `p` with constraints in other words. -/
structure InOtherWords (p q : Raw) : Prop where
  slots : q.slots = p.slots
  choices : q.choices = p.choices
  choosers : q.choosers = p.choosers
  exprs : List.Forall₂ (Reworded p) p.exprs q.exprs

end Wassign.Spec
