import Verif.Basic
/-
Plain data: constraint.rs, choice_data.rs, chooser_data.rs, slot_data.rs, input_data.rs, solution.rs.
-/
namespace Wassign

/-- constraint.rs:3-22 `ConstraintType`. -/
inductive Kind where
  | invalid
  | choiceIsInSlot
  | choiceIsNotInSlot
  | choicesAreInSameSlot
  | choicesAreNotInSameSlot
  | choicesHaveOffset
  | slotHasLimitedSize
  | slotContainsChoice
  | slotNotContainsChoice
  | slotsHaveSameChoices
  | choicesHaveSameChoosers
  | chooserIsInChoice
  | chooserIsNotInChoice
  | choosersHaveSameChoices
  | choiceContainsChooser
  | choiceNotContainsChooser
deriving DecidableEq, Repr, Inhabited

/-- constraint.rs:3-22: the `usize` discriminant (`kind as usize`). -/
def Kind.toNat : Kind → Nat
  | .invalid => 0
  | .choiceIsInSlot => 1
  | .choiceIsNotInSlot => 2
  | .choicesAreInSameSlot => 3
  | .choicesAreNotInSameSlot => 4
  | .choicesHaveOffset => 5
  | .slotHasLimitedSize => 6
  | .slotContainsChoice => 7
  | .slotNotContainsChoice => 8
  | .slotsHaveSameChoices => 9
  | .choicesHaveSameChoosers => 65536
  | .chooserIsInChoice => 65537
  | .chooserIsNotInChoice => 65538
  | .choosersHaveSameChoices => 65539
  | .choiceContainsChooser => 65540
  | .choiceNotContainsChooser => 65541

/-- constraint.rs:24-33 `SlotSizeLimitOp`. -/
inductive LimitOp where
  | eq | gt | geq | neq | leq | lt
deriving DecidableEq, Repr, Inhabited

/-- constraint.rs:24-33: declaration position, which is what the derived `Ord` compares
(the derive orders by discriminant: Lt=-3, Leq=-2, Neq=-1, Eq=1, Gt=2, Geq=3). -/
def LimitOp.toInt : LimitOp → Int
  | .eq => 1 | .gt => 2 | .geq => 3 | .neq => -1 | .leq => -2 | .lt => -3

/-- constraint.rs:35-47 `SlotSizeLimitOp::negation`. -/
def LimitOp.negation : LimitOp → LimitOp
  | .eq => .neq | .neq => .eq | .gt => .leq | .geq => .lt | .leq => .gt | .lt => .geq

/-- constraint.rs:49-56 `ConstraintTarget`. -/
inductive Target where
  | none
  | slot (s : Nat)
  | choice (c : Nat)
  | chooser (p : Nat)
  | limit (l : Nat)
deriving DecidableEq, Repr, Inhabited

/-- constraint.rs:58-63 `ConstraintExtra`. -/
inductive Extra where
  | none
  | offset (o : Int)
  | limitOp (op : LimitOp)
deriving DecidableEq, Repr, Inhabited

/-- constraint.rs:65-71 `Constraint`. -/
structure Constraint where
  kind : Kind
  left : Nat
  right : Target
  extra : Extra
deriving DecidableEq, Repr, Inhabited

namespace Constraint

/-- constraint.rs:135-141 `slot`. -/
def slot (c : Constraint) : R Nat :=
  match c.right with | .slot s => .ok s | _ => panic' "constraint does not carry a slot target"

/-- constraint.rs:143-149 `other_choice`. -/
def otherChoice (c : Constraint) : R Nat :=
  match c.right with | .choice s => .ok s | _ => panic' "constraint does not carry a choice target"

/-- constraint.rs:151-157 `other_chooser`. -/
def otherChooser (c : Constraint) : R Nat :=
  match c.right with | .chooser s => .ok s | _ => panic' "constraint does not carry a chooser target"

/-- constraint.rs:159-165 `limit`. -/
def limit (c : Constraint) : R Nat :=
  match c.right with | .limit l => .ok l | _ => panic' "constraint does not carry a limit target"

/-- constraint.rs:167-173 `offset`. -/
def offset (c : Constraint) : R Int :=
  match c.extra with | .offset o => .ok o | _ => panic' "constraint does not carry an offset"

/-- constraint.rs:175-181 `slot_size_limit_op`. -/
def limitOp (c : Constraint) : R LimitOp :=
  match c.extra with
  | .limitOp o => .ok o
  | _ => panic' "constraint does not carry a slot size limit operator"

/-- constraint.rs:88-119 `negation`. -/
def negation (c : Constraint) : R Constraint :=
  match c.kind with
  | .choiceIsInSlot => .ok { c with kind := .choiceIsNotInSlot }
  | .choiceIsNotInSlot => .ok { c with kind := .choiceIsInSlot }
  | .choicesAreInSameSlot => .ok { c with kind := .choicesAreNotInSameSlot }
  | .choicesAreNotInSameSlot => .ok { c with kind := .choicesAreInSameSlot }
  | .slotHasLimitedSize => do
      let op ← c.limitOp
      .ok { c with extra := .limitOp op.negation }
  | .slotContainsChoice => .ok { c with kind := .slotNotContainsChoice }
  | .slotNotContainsChoice => .ok { c with kind := .slotContainsChoice }
  | .chooserIsInChoice => .ok { c with kind := .chooserIsNotInChoice }
  | .chooserIsNotInChoice => .ok { c with kind := .chooserIsInChoice }
  | .choiceContainsChooser => .ok { c with kind := .choiceNotContainsChooser }
  | .choiceNotContainsChooser => .ok { c with kind := .choiceContainsChooser }
  | .invalid | .choicesHaveOffset | .slotsHaveSameChoices
  | .choicesHaveSameChoosers | .choosersHaveSameChoices => .ok { c with kind := .invalid }

/-- constraint.rs:121-123 `is_valid`. -/
def isValid (c : Constraint) : Bool := c.kind != .invalid

/-- constraint.rs:1, 125-128 `is_scheduling_constraint`. -/
def isScheduling (c : Constraint) : Bool := decide (c.kind.toNat < 65536) && c.kind != .invalid

/-- constraint.rs:1, 130-133 `is_assignment_constraint`. -/
def isAssignment (c : Constraint) : Bool := decide (65536 ≤ c.kind.toNat) && c.kind != .invalid

end Constraint

/-- choice_data.rs:1-9 `ChoiceData`. -/
structure Choice where
  name : Str
  min : Nat
  max : Nat
  continuation : Option Nat
  isOptional : Bool
deriving DecidableEq, Repr, Inhabited

/-- chooser_data.rs:1-6 `ChooserData`. -/
structure Chooser where
  name : Str
  prefs : List Nat
deriving DecidableEq, Repr, Inhabited

/-- input_data.rs:5-28 `InputData`. Slots are represented by their names (slot_data.rs:1-13);
the two `BTreeMap`s are association lists. -/
structure InputData where
  choices : List Choice
  choosers : List Chooser
  slots : List Str
  schedCons : List Constraint
  asgCons : List Constraint
  depGroups : List (List Nat)
  prefLevels : List Nat
  maxPref : Nat
  choiceConMap : List (Nat × List Constraint)
  chooserConMap : List (Nat × List Constraint)
deriving DecidableEq, Repr, Inhabited

namespace InputData

/-- Number of choices, choosers and slots. -/
abbrev nc (i : InputData) : Nat := i.choices.length
abbrev np (i : InputData) : Nat := i.choosers.length
abbrev ns (i : InputData) : Nat := i.slots.length

/-- input_data.rs:34-40 `preference_after`. -/
def preferenceAfter (i : InputData) (p : Nat) : Nat :=
  match i.prefLevels.find? (fun l => decide (p < l)) with
  | some l => l
  | none => u32Max

/-- input_data.rs:42-46 `scheduling_constraints_for`. -/
def schedConsFor (i : InputData) (c : Nat) : List Constraint :=
  match i.choiceConMap.lookup c with
  | some l => l
  | none => i.schedCons

end InputData

/-- scheduling.rs:3-6 `Scheduling`: slot per choice. -/
abbrev Scheduling := List (Option Nat)

/-- assignment.rs:3-5 `Assignment`: `data[chooser][slot]` is a choice. -/
abbrev Assignment := List (List Nat)

/-- solution.rs:3-17 `Solution`. -/
inductive Solution where
  | invalid
  | scheduling (s : Scheduling)
  | complete (s : Scheduling) (a : Assignment)
deriving DecidableEq, Repr, Inhabited

namespace Solution

/-- solution.rs:25-38 `Solution::new`. -/
def new (s : Option Scheduling) (a : Option Assignment) : R Solution :=
  match s, a with
  | some s, some a => .ok (.complete s a)
  | some s, none => .ok (.scheduling s)
  | none, none => .ok .invalid
  | none, some _ => panic' "a solution cannot contain an assignment without a scheduling"

/-- solution.rs:40-44 `is_invalid`. -/
@[simp] def isInvalid : Solution → Bool
  | .complete _ _ => false
  | _ => true

/-- solution.rs:46-52 `scheduling`. -/
def scheduling? : Solution → Option Scheduling
  | .invalid => none
  | .scheduling s => some s
  | .complete s _ => some s

/-- solution.rs:54-60 `assignment`. -/
def assignment? : Solution → Option Assignment
  | .complete _ a => some a
  | _ => none

end Solution
end Wassign
