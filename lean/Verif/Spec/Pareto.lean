import Verif.Spec.Solution
import Verif.Spec.Score
/-
Independent specification: when one assignment is better for everybody than another, and when it is more even.
-/
namespace Wassign.Spec
variable (i : InputData) (a : Assignment)

/-- The preference value of chooser `p` for what `p` attends according to column `k` (0: perfect). -/
def value (p k : Nat) : Nat := ((entry a p k).bind (pref i p)).getD 0

/-- In how many columns chooser `p` gets something worse than level `l`. -/
def worseThan (p l : Nat) : Nat := (List.range i.ns).countP fun k => decide (l < value i a p k)

/-- `a'` is better for everybody than `a`: nobody gets more choices worse than any level, and somebody gets fewer choices worse than
some level. -/
def BetterForAll (a' a : Assignment) : Prop :=
  (∀ p < i.np, ∀ l, worseThan i a' p l ≤ worseThan i a p l) ∧ ∃ p < i.np, ∃ l, worseThan i a' p l < worseThan i a p l

/-- By how much, summed over all choosers and columns, the preference values exceed level `l`. -/
def overshoot (l : Nat) : Nat :=
  ((List.range i.np).map fun p => ((List.range i.ns).map fun k => value i a p k - l).sum).sum

/-- `a'` is more even than `a`: for no level the values exceed it by more in total, and for some level by less. -/
def MoreEven (a' a : Assignment) : Prop :=
  (∀ l, overshoot i a' l ≤ overshoot i a l) ∧ ∃ l, overshoot i a' l < overshoot i a l

/-- `cost` increases strictly up to `m`. -/
def Increasing (cost : Nat → Int) (m : Nat) : Prop := ∀ x < m, cost x < cost (x + 1)

/-- `cost` increases by strictly more from each value to the next, up to `m`. -/
def Accelerating (cost : Nat → Int) (m : Nat) : Prop :=
  Increasing cost m ∧ ∀ x, x + 2 ≤ m → cost (x + 1) - cost x < cost (x + 2) - cost (x + 1)

end Wassign.Spec
