import Verif.Spec.Solution
/-
Independent specification: how often a preference value is given out.
-/
namespace Wassign.Spec
variable (i : InputData) (a : Assignment)

/-- Chooser `p` gets preference `x` in the `k`-th entry of the own row. -/
def Gets (p k x : Nat) : Prop := ∃ c, entry a p k = some c ∧ pref i p c = some x

instance (p k x : Nat) : Decidable (Gets i a p k x) :=
  match h : entry a p k with
  | none => isFalse (by rintro ⟨c, h1, _⟩; rw [h] at h1; cases h1)
  | some c => if h2 : pref i p c = some x then isTrue ⟨c, h, h2⟩
    else isFalse (by rintro ⟨c', h1, h3⟩; rw [h] at h1; cases h1; exact h2 h3)

/-- The number of cells (chooser, entry) of the assignment with preference `x`. -/
def timesGiven (x : Nat) : Nat :=
  ((List.range i.np).map fun p => (List.range i.ns).countP fun k => decide (Gets i a p k x)).sum

end Wassign.Spec

namespace Wassign.Spec

/-- The weighted sum of the preference values given out: `Σ count(x) * weight x` over the values `x = 0, …, maxPref`. For
`weight x = x^exponent` this is, up to the fixed scaling and rounding, the minor score of C60. -/
def givenSum (i : InputData) (weight : Nat → Int) (a : Assignment) : Int :=
  ((List.range (i.maxPref + 1)).map fun x => (timesGiven i a x : Int) * weight x).sum

end Wassign.Spec
