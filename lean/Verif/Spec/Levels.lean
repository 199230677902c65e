import Verif.Spec.Critical
/-
How the search uses the preference levels (doc/src/Concept.md:114: "trying to satisfy all critical sets for a set preference level p
until a timeout is reached. If the timeout is reached without finding a valid solution, p is raised to the next level (...), and the
process is repeated until a solution is found").
-/
namespace Wassign.Spec

/-- `l'` is the next preference level after `l`. -/
def NextLevel (i : InputData) (l l' : Nat) : Prop :=
  l' ∈ i.prefLevels ∧ l < l' ∧ ∀ x ∈ i.prefLevels, l < x → l' ≤ x

/-- Level by level from `l` to another level, each time from a level that has been given up. -/
inductive Raised (i : InputData) (givenUp : Nat → Prop) (l : Nat) : Nat → Prop
  | start : Raised i givenUp l l
  | next {m m' : Nat} : Raised i givenUp l m → givenUp m → NextLevel i m m' → Raised i givenUp l m'

/-- No scheduling satisfies the scheduling rules and all these critical sets. -/
def NoneCovers (i : InputData) (sets : List CriticalSet) : Prop :=
  ∀ t, SchedShape i t → SchedValid i t → ∃ set ∈ sets, ¬ CoversSlots i t set.data

/-- Every slot but at most slot `t` contains a choice of the set. -/
def CoversBut (i : InputData) (s : Scheduling) (set : List Nat) (t : Nat) : Prop :=
  ∀ u, u < i.ns → u ≠ t → ∃ c ∈ set, slotAt s c = some u

end Wassign.Spec
