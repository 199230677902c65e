import Verif.Spec.Solution
/-
The order in which the scheduling search proceeds (doc/src/Concept.md:108-112).
-/
namespace Wassign.Spec

/-- How full slot `t` is: the sum of the maxima of the choices placed there so far (Concept.md:112). -/
def fullness (i : InputData) (placed : Scheduling) (t : Nat) : Nat := slotSum i placed (·.max) t

/-- Slot `a` comes before slot `b`: it is less full, or as full and listed first. -/
def Emptier (i : InputData) (placed : Scheduling) (a b : Nat) : Prop :=
  fullness i placed a < fullness i placed b ∨ (fullness i placed a = fullness i placed b ∧ a < b)

/-- What of a scheduling is decided when only the first `k` choices of an order have been handled. -/
def decidedFirst (order : List Nat) (k : Nat) (s : Scheduling) : Scheduling :=
  (List.range s.length).map (fun c => if c ∈ order.take k then slotAt s c else none)

/-- Scheduling `s` comes before scheduling `t` in the order the search goes through them: at the first choice they treat differently
`s` does not put it into a fuller slot (or one as full and listed later) than `t` does. -/
def SearchedFirst (i : InputData) (order : List Nat) (s t : Scheduling) : Prop :=
  ∃ k c, order[k]? = some c ∧ (∀ j c', j < k → order[j]? = some c' → slotAt s c' = slotAt t c') ∧ slotAt s c ≠ slotAt t c ∧
    ∀ a b, slotAt s c = some a → slotAt t c = some b → Emptier i (decidedFirst order k s) a b

/-- The states a run can get into. -/
inductive Reached {α : Type} (step : α → α → Prop) (start : α) : α → Prop
  | start : Reached step start start
  | step {m m' : α} : Reached step start m → step m m' → Reached step start m'

/-- A stretch of a run during which a measure never drops below `d`. -/
inductive Stays {α : Type} (step : α → α → Prop) (measure : α → Nat) (d : Nat) : α → α → Prop
  | refl {m : α} : d ≤ measure m → Stays step measure d m m
  | step {m m' m'' : α} : Stays step measure d m m' → step m' m'' → d ≤ measure m'' → Stays step measure d m m''

end Wassign.Spec
