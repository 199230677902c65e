import Verif.Spec.Solution
import Verif.Model.CriticalSets
/-
What critical sets mean.
-/
namespace Wassign.Spec

/-- Chooser `p` ranks choice `c` at `q` or better. -/
def likes (i : InputData) (p q c : Nat) : Bool := (pref i p c).any (fun x => decide (x ≤ q))

/-- The choices that chooser `p` ranks `q` or better, in ascending order. -/
def acceptable (i : InputData) (p q : Nat) : List Nat := (List.range i.nc).filter (likes i p q)

/-- The critical set of chooser `p` at level `q`, before any simplification, is kept only if the
minima of its choices fit into all slots but one. -/
def IsCritical (i : InputData) (set : CriticalSet) : Prop :=
  ∃ p, p < i.np ∧ set.preference ∈ i.prefLevels ∧ set.data = acceptable i p set.preference ∧
    ((set.data.map (fun c => (i.choices[c]?.map (·.min)).getD 0)).sum ≤ i.np * (i.ns - 1))

/-- A scheduling covers a set: every slot contains one of its choices. -/
def CoversSlots (i : InputData) (s : Scheduling) (set : List Nat) : Prop :=
  ∀ t, t < i.ns → ∃ c ∈ set, slotAt s c = some t

/-- Nobody gets anything worse than `l`. -/
def WorstAtMost (i : InputData) (a : Assignment) (l : Nat) : Prop :=
  ∀ p c x, p < i.np → Attends a p c → pref i p c = some x → x ≤ l

end Wassign.Spec
