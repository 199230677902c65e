import Verif.Spec.Solution
import Verif.Model.Expr
/-
The documented meaning of constraint expressions (doc/src/Manual.md, section "Constraints").
-/
namespace Wassign.Spec

/-- Constraint objects. -/
inductive Operand where
  | theSlot (t : Nat)
  | theChoice (c : Nat)
  | theChooser (p : Nat)
  /-- `choice.slot`, `choice.slot(part)` -/
  | slotOf (c : Nat)
  /-- `slot.choices` -/
  | choicesIn (t : Nat)
  /-- `slot.size` -/
  | sizeOf (t : Nat)
  /-- `choice.choosers`, `choice.choosers(part)` -/
  | attendeesOf (c : Nat)
  /-- `chooser.choices` -/
  | attendedBy (p : Nat)
  | number (n : Nat)
deriving DecidableEq, Repr

/-- Comparison of numbers. -/
def RelT.onNat : RelT → Nat → Nat → Prop
  | .eq, x, y => x = y
  | .neq, x, y => x ≠ y
  | .gt, x, y => x > y
  | .lt, x, y => x < y
  | .geq, x, y => x ≥ y
  | .leq, x, y => x ≤ y
  | _, _, _ => False

/-- The meaning of a relation between two constraint objects (false if it has none). A slot that a
left-out choice does not have is equal to no slot; demands about who attends a choice are void for a
choice that is left out. -/
def Means (i : InputData) (s : Scheduling) (a : Assignment) (l : Operand) (rel : RelT) (r : Operand) : Prop :=
  match l, rel, r with
  | .slotOf c, .eq, .theSlot t | .theSlot t, .eq, .slotOf c => slotAt s c = some t
  | .slotOf c, .neq, .theSlot t | .theSlot t, .neq, .slotOf c => slotAt s c ≠ some t
  | .slotOf c, .eq, .slotOf d => slotAt s c = slotAt s d
  | .slotOf c, .neq, .slotOf d => ∀ t, ¬ (slotAt s c = some t ∧ slotAt s d = some t)
  | .sizeOf t, rel, .number n => RelT.onNat rel (slotSize i s t) n
  | .number n, rel, .sizeOf t => RelT.onNat rel n (slotSize i s t)
  | .choicesIn t, .contains, .theChoice c => slotAt s c = some t
  | .choicesIn t, .notContains, .theChoice c => slotAt s c ≠ some t
  | .choicesIn t, .eq, .choicesIn u => ∀ c, slotAt s c = some t ↔ slotAt s c = some u
  | .attendeesOf c, .contains, .theChooser p => slotAt s c ≠ none → Attends a p c
  | .attendeesOf c, .notContains, .theChooser p => ¬ Attends a p c
  | .attendeesOf c, .eq, .attendeesOf d =>
      slotAt s c ≠ none → slotAt s d ≠ none → ∀ p, Attends a p c ↔ Attends a p d
  | .attendedBy p, .contains, .theChoice c => slotAt s c ≠ none → Attends a p c
  | .attendedBy p, .notContains, .theChoice c => ¬ Attends a p c
  | .attendedBy p, .eq, .attendedBy q => ∀ c, Attends a p c ↔ Attends a q c
  | _, _, _ => False

/-- The relation makes sense between these objects: the combinations given a meaning above. -/
def Sensible (l : Operand) (rel : RelT) (r : Operand) : Prop :=
  match l, r with
  | .slotOf _, .theSlot _ | .theSlot _, .slotOf _ | .slotOf _, .slotOf _ => rel = .eq ∨ rel = .neq
  | .sizeOf _, .number _ | .number _, .sizeOf _ => rel ≠ .contains ∧ rel ≠ .notContains
  | .choicesIn _, .theChoice _ | .attendeesOf _, .theChooser _ | .attendedBy _, .theChoice _ =>
      rel = .contains ∨ rel = .notContains
  | .choicesIn _, .choicesIn _ | .attendeesOf _, .attendeesOf _ | .attendedBy _, .attendedBy _ => rel = .eq
  | _, _ => False

instance (l : Operand) (rel : RelT) (r : Operand) : Decidable (Sensible l rel r) := by
  unfold Sensible; split <;> infer_instance

/-- Part `k` of choice `c` is choice `c'`. -/
inductive Part (d : InputData) : Nat → Nat → Nat → Prop
  | zero (c : Nat) : Part d c 0 c
  | succ {c n k c' : Nat} {ch : Choice} : d.choices[c]? = some ch → ch.continuation = some n →
      Part d n k c' → Part d c (k + 1) c'

/-- What an accessor of the script interface stands for: it carries the name of its object (and the part
for choices). -/
inductive Denotes (d : InputData) : Accessor → Operand → Prop
  | theSlot {n : Str} {t : Nat} : d.slots[t]? = some n → Denotes d ⟨.slot, .notSet, n, 0⟩ (.theSlot t)
  | choicesIn {n : Str} {t : Nat} : d.slots[t]? = some n → Denotes d ⟨.slot, .choice, n, 0⟩ (.choicesIn t)
  | sizeOf {n : Str} {t : Nat} : d.slots[t]? = some n → Denotes d ⟨.slot, .size, n, 0⟩ (.sizeOf t)
  | theChoice {n : Str} {c : Nat} : (d.choices.map (·.name))[c]? = some n →
      Denotes d ⟨.choice, .notSet, n, 0⟩ (.theChoice c)
  | slotOf {n : Str} {c k c' : Nat} : (d.choices.map (·.name))[c]? = some n → Part d c k c' →
      Denotes d ⟨.choice, .slot, n, k⟩ (.slotOf c')
  | attendeesOf {n : Str} {c k c' : Nat} : (d.choices.map (·.name))[c]? = some n → Part d c k c' →
      Denotes d ⟨.choice, .chooser, n, k⟩ (.attendeesOf c')
  | theChooser {n : Str} {p : Nat} : (d.choosers.map (·.name))[p]? = some n →
      Denotes d ⟨.chooser, .notSet, n, 0⟩ (.theChooser p)
  | attendedBy {n : Str} {p : Nat} : (d.choosers.map (·.name))[p]? = some n →
      Denotes d ⟨.chooser, .choice, n, 0⟩ (.attendedBy p)
  | number (n : Nat) : n ≤ u32Max → Denotes d ⟨.integer, .notSet, intStr n, 0⟩ (.number n)

/-- A simple object (not a derived one). -/
def Operand.simple : Operand → Bool
  | .theSlot _ | .theChoice _ | .theChooser _ | .number _ => true
  | _ => false

/-- The expressions the script interface can build (rhai_interface.rs:296-366): a comparison has a derived
object on at least one side; `contains` has a derived object on the left and a slot, choice or chooser on
the right. -/
def Constructible (l : Operand) (rel : RelT) (r : Operand) : Prop :=
  match rel with
  | .contains | .notContains => l.simple = false ∧ r.simple = true ∧ ∀ n, r ≠ .number n
  | _ => l.simple = false ∨ r.simple = false

/-- Comparisons the manual lists (section "Relations") that no timetable can be asked for: lists that differ, and the sizes of two
slots. -/
inductive OnlyInManual : Operand → RelT → Operand → Prop
  | slotLists (t u : Nat) : OnlyInManual (.choicesIn t) .neq (.choicesIn u)
  | chooserLists (c d : Nat) : OnlyInManual (.attendeesOf c) .neq (.attendeesOf d)
  | choiceLists (p q : Nat) : OnlyInManual (.attendedBy p) .neq (.attendedBy q)
  | sizes (rel : RelT) (t u : Nat) : rel ≠ .contains → rel ≠ .notContains → OnlyInManual (.sizeOf t) rel (.sizeOf u)

/-- Continuations point to existing choices. -/
def Continues (d : InputData) : Prop := ∀ c ∈ d.choices, ∀ n, c.continuation = some n → n < d.choices.length

/-- No two objects of a kind have the same name; continuations point to existing choices. -/
structure NamesOk (d : InputData) : Prop where
  slots : d.slots.Nodup
  choices : (d.choices.map (·.name)).Nodup
  choosers : (d.choosers.map (·.name)).Nodup
  continuations : Continues d

end Wassign.Spec
