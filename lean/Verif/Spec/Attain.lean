import Verif.Spec.Order
import Verif.Spec.Moves
import Verif.Spec.Critical
/-
Which schedulings the solver can get to.
-/
namespace Wassign.Spec

/-- An order in which the choices may be handled: every choice once, one with more scheduling constraints before one with fewer
(Concept.md:108-110). -/
def HandlingOrder (i : InputData) (order : List Nat) : Prop :=
  order.Perm (List.range i.nc) ∧ order.Pairwise (fun a b => (i.schedConsFor b).length ≤ (i.schedConsFor a).length)

/-- `s` satisfies the scheduling rules, and in the given order it comes before every other scheduling that does so and covers the
given critical sets. -/
structure FirstInOrder (i : InputData) (sets : List CriticalSet) (order : List Nat) (s : Scheduling) : Prop where
  shape : SchedShape i s
  valid : SchedValid i s
  first : ∀ t, SchedShape i t → SchedValid i t → (∀ set ∈ sets, CoversSlots i t set.data) → t = s ∨ SearchedFirst i order s t

/-- The schedulings one can get to from the first ones of the possible orders, by moving one choice or exchanging the slots of choices at
a time, through schedulings that satisfy the scheduling rules. `sets l` are the critical sets of preference level `l`. -/
inductive Attainable (i : InputData) (sets : Nat → List CriticalSet) : Scheduling → Prop
  | start {s : Scheduling} (order : List Nat) (l : Nat) : HandlingOrder i order → FirstInOrder i (sets l) order s → Attainable i sets s
  | step {s n : Scheduling} : Attainable i sets s → SchedShape i n → SchedValid i n → (SingleMove i s n ∨ n.Perm s) → Attainable i sets n

/-- Following the order, `s` always puts the next choice into the least full slot (the first such one). -/
def LeastFull (i : InputData) (order : List Nat) (s : Scheduling) : Prop :=
  ∀ (k c : Nat), order[k]? = some c → ∃ a, slotAt s c = some a ∧ ∀ b, b < i.ns → b ≠ a → Emptier i (decidedFirst order k s) a b

/-- The outcome of the `k`-th of a series of searches that starts in state `r` and in which every search takes up where the one before
has left off (the series ends with a search that finds nothing). -/
def nthSearch {ρ : Type} (next : ρ → R (Option Scheduling × ρ)) (r : ρ) : Nat → R (Option Scheduling × ρ)
  | 0 => next r
  | k + 1 => match nthSearch next r k with
    | .ok (some _, r') => next r'
    | x => x

end Wassign.Spec
