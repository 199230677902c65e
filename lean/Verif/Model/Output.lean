import Verif.Model.Scheduling
/-
output_formatter.rs: a solution as CSV text.
-/
namespace Wassign
namespace Output

/-- `format!("\"{}\"", name)`. -/
def quoted (s : Str) : Str := '"' :: (s ++ ['"'])

/-- `[String]::join(sep)`. -/
def join (sep : Str) : List Str → Str
  | [] => []
  | [x] => x
  | x :: y :: rest => x ++ sep ++ join sep (y :: rest)

/-- output_formatter.rs:68-70, 117-120: `strip_prefix(GENERATED_PREFIX)`; input_data.rs:31 (`"~"`). -/
def stripGenerated : Str → Str
  | '~' :: rest => rest
  | s => s

/-- output_formatter.rs:59-72: the line of one choice. -/
def schedulingLine (i : InputData) (s : Scheduling) (x : Choice × Nat) : R Str := do
  let slot ← slotOf s x.2
  let slotName ← match slot with
    | some t => idx i.slots t "input.slots[slot_index]"
    | none => pure "not scheduled".toList
  pure (quoted (stripGenerated x.1.name) ++ ", ".toList ++ quoted slotName)

/-- output_formatter.rs:39-75 `write_scheduling_solution`. -/
def writeScheduling (i : InputData) (sol : Solution) : R Str :=
  match sol.scheduling? with
  | none => .error (.error "IncompleteSolution")
  | some s => do
    let lines ← i.choices.zipIdx.mapM (schedulingLine i s)
    pure (join "\n".toList ((quoted "Choice".toList ++ ", ".toList ++ quoted "Slot".toList) :: lines))

/-- output_formatter.rs:103-112: one round of the inner loop. -/
def placeChoice (s : Scheduling) (a : Assignment) (p : Nat) (choices : List Nat) (k : Nat) : R (List Nat) := do
  let c ← choiceOf a p k
  let slot ← slotOf s c
  match slot with
  | none => .error (.error "IncompleteSolution")
  | some t => if t < choices.length then pure (choices.set t c) else panic' "choices[scheduled_slot]"

/-- output_formatter.rs:115-122: one cell. -/
def choiceCell (i : InputData) (c : Nat) : R Str := do
  let ch ← idx i.choices c "input.choices[choice]"
  pure (quoted (stripGenerated ch.name))

/-- output_formatter.rs:101-124: the line of one chooser. -/
def assignmentLine (i : InputData) (s : Scheduling) (a : Assignment) (p : Nat) : R Str := do
  let choices ← (List.range i.ns).foldlM (placeChoice s a p) (List.replicate i.ns 0)
  let who ← idx i.choosers p "input.choosers[chooser]"
  let cells ← (choices.take i.ns).mapM (choiceCell i)
  pure (join ", ".toList (quoted who.name :: cells))

/-- output_formatter.rs:77-127 `write_assignment_solution`. -/
def writeAssignment (i : InputData) (sol : Solution) : R Str :=
  match sol.scheduling? with
  | none => .error (.error "IncompleteSolution")
  | some s =>
    match sol.assignment? with
    | none => .error (.error "IncompleteSolution")
    | some a => do
      let header := join ", ".toList (quoted "Chooser".toList :: i.slots.map quoted)
      let lines ← (List.range i.np).mapM (assignmentLine i s a)
      pure (join "\n".toList (header :: lines))

end Output
end Wassign
