import Verif.Spec.Solution
/-
CSV text and the tables the program prints.
-/
namespace Wassign.Spec

/-- A table as CSV: every cell in double quotes, cells separated by a comma and a space, rows by a line break. -/
def csv (table : List (List Str)) : Str :=
  List.intercalate ['\n'] (table.map (fun row =>
    List.intercalate [',', ' '] (row.map (fun cell => ['"'] ++ cell ++ ['"']))))

/-- The name under which a choice is printed: later parts of a choice are stored with a leading `~`, which is not
printed. -/
def shown : Str → Str
  | [] => []
  | c :: rest => if c = '~' then rest else c :: rest

/-- `table` is the table of a scheduling: a head row, then one row per choice with its name and its slot. -/
structure SchedulingTable (i : InputData) (s : Scheduling) (table : List (List Str)) : Prop where
  head : table[0]? = some ["Choice".toList, "Slot".toList]
  rows : table.length = i.nc + 1
  row : ∀ c ch, i.choices[c]? = some ch → ∃ place, table[c + 1]? = some [shown ch.name, place] ∧
    match slotAt s c with
    | some t => i.slots[t]? = some place
    | none => place = "not scheduled".toList

/-- `table` is the table of an assignment: a head row with the slots, then one row per chooser with the chooser's name
and, below each slot, the choice the chooser attends in that slot. -/
structure AssignmentTable (i : InputData) (s : Scheduling) (a : Assignment) (table : List (List Str)) : Prop where
  head : table[0]? = some ("Chooser".toList :: i.slots)
  rows : table.length = i.np + 1
  row : ∀ p who, i.choosers[p]? = some who → ∃ cells, table[p + 1]? = some (who.name :: cells) ∧ cells.length = i.ns ∧
    ∀ t, t < i.ns → ∃ c ch, Attends a p c ∧ slotAt s c = some t ∧ i.choices[c]? = some ch ∧ cells[t]? = some (shown ch.name)

end Wassign.Spec
