import Verif.Spec.Parts
import Verif.Spec.Solution
import Mathlib.Logic.Equiv.Defs
/-
The same input with the choices in another order.
-/
namespace Wassign.Spec

/-- The input `q` lists the choices of `p` in another order: number `k` of `q` is number `g k` of `p`; the wishes are in the new order too. -/
structure ChoicesReordered (g : Equiv.Perm Nat) (p q : Raw) : Prop where
  slots : q.slots = p.slots
  exprs : q.exprs = p.exprs
  number : q.choices.length = p.choices.length
  choices : ∀ k, q.choices[k]? = p.choices[g k]?
  names : q.choosers.map (·.name) = p.choosers.map (·.name)
  wishes : ∀ (i : Nat) (c c' : Chooser), p.choosers[i]? = some c → q.choosers[i]? = some c' →
    c'.prefs.length = c.prefs.length ∧ ∀ k, c'.prefs[k]? = c.prefs[g k]?

/-- Where each part of a choice is in the two orders: the part `j` of choice `k` of `qs` has number `c` among all parts of `qs`, and the same
part has number `π c` among all parts of `ps`. -/
def PartsMoved (g : Equiv.Perm Nat) (ps qs : List Proto) (π : Equiv.Perm Nat) : Prop :=
  ∀ k j c, IsPart qs k j c → IsPart ps (g k) j (π c)

/-- The same scheduling with the choices in another order. -/
def SlotsMoved (π : Equiv.Perm Nat) (s s' : Scheduling) : Prop := ∀ c, slotAt s' c = slotAt s (π c)

/-- The same assignment with the choices renumbered. -/
def EntriesMoved (π : Equiv.Perm Nat) (a a' : Assignment) : Prop := ∀ p k, entry a' p k = (entry a p k).map π.symm

end Wassign.Spec
