import Verif.Spec.Rejected
import Verif.Spec.Assign
/-
The same input with more choices on offer.
-/
namespace Wassign.Spec

/-- The input `q` is `p` with further optional choices at the end of the list. The choosers have wishes for these, too, and no constraint
of `p` that names a choice means another one because of the new names. -/
structure OffersMore (p q : Raw) (extra : List Proto) : Prop where
  slots : q.slots = p.slots
  choices : q.choices = p.choices ++ extra
  optional : ∀ x ∈ extra, x.optional = true
  names : q.choosers.map (·.name) = p.choosers.map (·.name)
  wishes : ∀ c ∈ q.choosers, c.prefs.length = q.choices.length
  exprs : q.exprs = p.exprs
  meant : ∀ e ∈ p.exprs, ∀ a, (a = e.left ∨ a = e.right) → a.kind = .choice →
    ∀ i, BestMatch a.name (namesFor q .choice) i ↔ BestMatch a.name (namesFor p .choice) i

/-- The wishes for the old choices stay as they are, and none for a new choice is above the largest of them. -/
structure SameWishes (p q : Raw) : Prop where
  kept : List.Forall₂ (fun c c' : Chooser => c'.prefs.take p.choices.length = c.prefs) p.choosers q.choosers
  largest : ∀ c' ∈ q.choosers, ∀ x ∈ c'.prefs, ∃ c ∈ p.choosers, ∃ y ∈ c.prefs, x ≤ y

/-- The same scheduling with `n` more choices, none of which takes place. -/
def withoutNew (s : Scheduling) (n : Nat) : Scheduling := s ++ List.replicate n none

end Wassign.Spec
