import Verif.Model.Types
/-
What a solution is supposed to mean, independent of the code's checking loops.
-/
namespace Wassign.Spec

/-- The slot in which choice `c` takes place (`none`: not scheduled). -/
def slotAt (s : Scheduling) (c : Nat) : Option Nat := s[c]?.join

/-- Every scheduled slot exists. -/
def SlotsInRange (i : InputData) (s : Scheduling) : Prop := ∀ c t, slotAt s c = some t → t < i.ns

/-- What a scheduling must look like: one entry per choice, slots in range. -/
structure SchedShape (i : InputData) (s : Scheduling) : Prop where
  len : s.length = i.nc
  range : SlotsInRange i s

/-- Entry of chooser `p` in column `k` of an assignment. -/
def entry (a : Assignment) (p k : Nat) : Option Nat := a[p]?.bind (·[k]?)

/-- Chooser `p` attends choice `c`. -/
def Attends (a : Assignment) (p c : Nat) : Prop := ∃ k, entry a p k = some c

/-- How many choices take place in slot `t`. -/
def slotSize (i : InputData) (s : Scheduling) (t : Nat) : Nat :=
  (List.range i.nc).countP (fun c => slotAt s c == some t)

/-- The relation a limit operator denotes. -/
def Rel : LimitOp → Nat → Nat → Prop
  | .eq, x, y => x = y
  | .neq, x, y => x ≠ y
  | .gt, x, y => x > y
  | .lt, x, y => x < y
  | .geq, x, y => x ≥ y
  | .leq, x, y => x ≤ y

/-- The meaning of a scheduling constraint (false for a malformed or assignment constraint). -/
def SchedHolds (i : InputData) (s : Scheduling) (c : Constraint) : Prop :=
  match c.kind, c.right, c.extra with
  | .choiceIsInSlot, .slot t, _ => slotAt s c.left = some t
  | .choiceIsNotInSlot, .slot t, _ => slotAt s c.left ≠ some t
  | .slotContainsChoice, .choice x, _ => slotAt s x = some c.left
  | .slotNotContainsChoice, .choice x, _ => slotAt s x ≠ some c.left
  | .choicesAreInSameSlot, .choice y, _ => slotAt s c.left = slotAt s y
  | .choicesAreNotInSameSlot, .choice y, _ => ∀ t, ¬ (slotAt s c.left = some t ∧ slotAt s y = some t)
  | .choicesHaveOffset, .choice y, .offset o =>
      (slotAt s c.left = none ∧ slotAt s y = none) ∨
      ∃ l r : Nat, slotAt s c.left = some l ∧ slotAt s y = some r ∧ (r : Int) = l + o
  | .slotHasLimitedSize, .limit n, .limitOp op => Rel op (slotSize i s c.left) n
  | .slotsHaveSameChoices, .slot t, _ => ∀ x, slotAt s x = some c.left ↔ slotAt s x = some t
  | _, _, _ => False

/-- The meaning of an assignment constraint (false for a malformed or scheduling constraint). -/
def AsgHolds (s : Scheduling) (a : Assignment) (c : Constraint) : Prop :=
  match c.kind, c.right with
  | .choicesHaveSameChoosers, .choice y =>
      slotAt s c.left ≠ none → slotAt s y ≠ none → ∀ p, Attends a p c.left ↔ Attends a p y
  | .chooserIsInChoice, .choice y => slotAt s y ≠ none → Attends a c.left y
  | .chooserIsNotInChoice, .choice y => ¬ Attends a c.left y
  | .choiceContainsChooser, .chooser p => slotAt s c.left ≠ none → Attends a p c.left
  | .choiceNotContainsChooser, .chooser p => ¬ Attends a p c.left
  | .choosersHaveSameChoices, .chooser q => ∀ x, Attends a c.left x ↔ Attends a q x
  | _, _ => False

/-- A constraint of either sort holds for a solution. -/
def Holds (i : InputData) (s : Scheduling) (a : Assignment) (c : Constraint) : Prop :=
  SchedHolds i s c ∨ AsgHolds s a c

instance (a : Assignment) (p k : Nat) (c : Nat) : Decidable (entry a p k = some c) := inferInstance

/-- Executable form of `Attends` for counting. -/
def attendsB (a : Assignment) (p c : Nat) : Bool := (a[p]?.getD []).contains c

theorem attendsB_iff (a : Assignment) (p c : Nat) : attendsB a p c = true ↔ Attends a p c := by
  unfold attendsB Attends entry
  cases h : a[p]? with
  | none => simp
  | some row => simp [List.mem_iff_getElem?]

/-- Number of choosers attending choice `c`. -/
def participants (i : InputData) (a : Assignment) (c : Nat) : Nat :=
  (List.range i.np).countP (fun p => attendsB a p c)

/-- Every chooser attends exactly one choice in every slot: among the entries of the chooser exactly
one lies in that slot. -/
def OnePerSlot (i : InputData) (s : Scheduling) (a : Assignment) : Prop :=
  ∀ p, p < i.np → ∀ t, t < i.ns →
    ∃ c, (Attends a p c ∧ slotAt s c = some t) ∧
      ∀ c', Attends a p c' → slotAt s c' = some t → c' = c

/-- Nobody attends a choice that is not scheduled. -/
def OnlyScheduled (i : InputData) (s : Scheduling) (a : Assignment) : Prop :=
  ∀ p, p < i.np → ∀ c, Attends a p c → ∃ t, t < i.ns ∧ slotAt s c = some t

/-- Scheduled choices have an admissible number of participants. -/
def WithinBounds (i : InputData) (s : Scheduling) (a : Assignment) : Prop :=
  ∀ c (h : c < i.nc), slotAt s c ≠ none →
    (i.choices[c]).min ≤ participants i a c ∧ participants i a c ≤ (i.choices[c]).max

/-- Dimensions that the constructors `Scheduling::with_data` / `Assignment::new` guarantee. -/
structure Shape (i : InputData) (s : Scheduling) (a : Assignment) : Prop where
  schedLen : s.length = i.nc
  asgLen : a.length = i.np
  rowLen : ∀ r ∈ a, r.length = i.ns

/-- A valid solution (the meaning of C01). -/
structure Valid (i : InputData) (s : Scheduling) (a : Assignment) : Prop where
  sched : ∀ c ∈ i.schedCons, SchedHolds i s c
  asg : ∀ c ∈ i.asgCons, AsgHolds s a c
  onePerSlot : OnePerSlot i s a
  onlyScheduled : OnlyScheduled i s a
  bounds : WithinBounds i s a

/-- Sum of `f` over the choices in slot `t`. -/
def slotSum (i : InputData) (s : Scheduling) (f : Choice → Nat) (t : Nat) : Nat :=
  ((List.range i.nc).map (fun c =>
    if slotAt s c = some t then (i.choices[c]?.map f).getD 0 else 0)).sum

/-- Every choice that is not optional takes place. -/
def Placed (i : InputData) (s : Scheduling) : Prop :=
  ∀ c (h : c < i.nc), (i.choices[c]).isOptional = false → slotAt s c ≠ none

/-- A feasible scheduling (the meaning of C02). -/
structure SchedValid (i : InputData) (s : Scheduling) : Prop where
  mandatory : ∀ c (h : c < i.nc), (i.choices[c]).isOptional = false → slotAt s c ≠ none
  minimum : ∀ t, t < i.ns → slotSum i s (·.min) t ≤ i.np
  maximum : ∀ t, t < i.ns → i.np ≤ slotSum i s (·.max) t
  cons : ∀ c ∈ i.schedCons, SchedHolds i s c

end Wassign.Spec

namespace Wassign.Spec

/-- Chooser `p`'s (normalized) preference value for choice `c`; smaller is better. -/
def pref (i : InputData) (p c : Nat) : Option Nat := i.choosers[p]?.bind (·.prefs[c]?)

/-- `w` is the worst preference value anybody gets in assignment `a` (0 if nobody attends anything). -/
structure IsWorst (i : InputData) (a : Assignment) (w : Nat) : Prop where
  upper : ∀ p c x, Attends a p c → pref i p c = some x → x ≤ w
  attained : w = 0 ∨ ∃ p c, Attends a p c ∧ pref i p c = some w

end Wassign.Spec
