import Verif.Model.Types
import Verif.Sort
/-
scheduling.rs, assignment.rs, and the feasibility part of scoring.rs.
-/
namespace Wassign

/-- scheduling.rs:55-57 `slot_of`. -/
def slotOf (s : Scheduling) (c : Nat) : R (Option Nat) := idx s c "slot_of"

/-- scheduling.rs:19-22 `with_data`. -/
def Scheduling.withData (i : InputData) (d : List (Option Nat)) : R Scheduling :=
  if d.length = i.nc then .ok d else panic' "with_data"

/-- assignment.rs:17-24 `Assignment::new`. -/
def Assignment.new (i : InputData) (d : List (List Nat)) : R Assignment :=
  if d.length = i.np ∧ ∀ r ∈ d, r.length = i.ns then .ok d else panic' "Assignment::new"

/-- assignment.rs:26-28 `choice_of`. -/
def choiceOf (a : Assignment) (p k : Nat) : R Nat := do
  let row ← idx a p "choice_of chooser"
  idx row k "choice_of slot"

/-- assignment.rs:30-41 `choosers_ordered`. -/
def choosersOrdered (i : InputData) (a : Assignment) (c : Nat) : R (List Nat) := do
  let rows ← (List.range i.np).mapM (fun p => do
    let cols ← (List.range i.ns).filterM (fun k => do
      let x ← choiceOf a p k
      pure (x == c))
    pure (cols.map (fun _ => p)))
  pure (sortNat rows.flatten)

/-- assignment.rs:43-49 `choices_ordered`. -/
def choicesOrdered (i : InputData) (a : Assignment) (p : Nat) : R (List Nat) := do
  let l ← (List.range i.ns).mapM (fun k => choiceOf a p k)
  pure (sortNat l)

/-- assignment.rs:51-58 `is_in_choice`. -/
def isInChoice (i : InputData) (a : Assignment) (p c : Nat) : R Bool :=
  anyRange i.ns (fun k => do
    let x ← choiceOf a p k
    pure (x == c))

/-- scoring.rs:157-164 and scheduling_solver.rs:345-352: the comparison of a slot size with a limit. -/
def LimitOp.test (op : LimitOp) (count limit : Nat) : Bool :=
  match op with
  | .eq => count == limit
  | .neq => count != limit
  | .gt => decide (limit < count)
  | .lt => decide (count < limit)
  | .geq => decide (limit ≤ count)
  | .leq => decide (count ≤ limit)

/-- scoring.rs:108-170: the body of the loop of `satisfies_constraints_scheduling` for one
constraint (`false` = the loop returns false). -/
def schedConOk (i : InputData) (s : Scheduling) (c : Constraint) : R Bool :=
  match c.kind with
  | .choiceIsInSlot => do
      let x ← slotOf s c.left
      let t ← c.slot
      pure (x == some t)
  | .choiceIsNotInSlot => do
      let x ← slotOf s c.left
      let t ← c.slot
      pure (x != some t)
  | .choicesAreInSameSlot => do
      let x ← slotOf s c.left
      let o ← c.otherChoice
      let y ← slotOf s o
      pure (x == y)
  | .choicesAreNotInSameSlot => do
      let x ← slotOf s c.left
      if x.isSome then
        let o ← c.otherChoice
        let y ← slotOf s o
        pure (!(y.isSome && x == y))
      else pure true
  | .choicesHaveOffset => do
      let x ← slotOf s c.left
      let o ← c.otherChoice
      let y ← slotOf s o
      match x, y with
      | some l, some r => do
          let r' ← toI32 r "slot fits in i32"
          let l' ← toI32 l "slot fits in i32"
          let off ← c.offset
          pure (r' - l' == off)
      | none, none => pure true
      | _, _ => pure false
  | .slotHasLimitedSize => do
      let members ← (List.range i.nc).filterM (fun ch => do
        let x ← slotOf s ch
        pure (x == some c.left))
      let count := satU32 members.length
      let op ← c.limitOp
      let lim ← c.limit
      pure (op.test count lim)
  | _ => panic' "Unknown scheduling constraint type"

/-- scoring.rs:103-174 `satisfies_constraints_scheduling`. -/
def satSched (i : InputData) (s : Scheduling) : R Bool :=
  i.schedCons.allM (schedConOk i s)

/-- scoring.rs:182-214: loop body of `satisfies_constraints_assignment`. -/
def asgConOk (i : InputData) (s : Scheduling) (a : Assignment) (c : Constraint) : R Bool :=
  match c.kind with
  | .choicesHaveSameChoosers => do
      let o ← c.otherChoice
      let y ← slotOf s o
      if y.isSome then
        let x ← slotOf s c.left
        if x.isSome then
          let cl ← choosersOrdered i a c.left
          let co ← choosersOrdered i a o
          pure (cl == co)
        else pure true
      else pure true
  | .chooserIsInChoice => do
      let o ← c.otherChoice
      let y ← slotOf s o
      if y.isSome then isInChoice i a c.left o else pure true
  | .chooserIsNotInChoice => do
      let o ← c.otherChoice
      let b ← isInChoice i a c.left o
      pure (!b)
  | .choosersHaveSameChoices => do
      let x ← choicesOrdered i a c.left
      let o ← c.otherChooser
      let y ← choicesOrdered i a o
      pure (x == y)
  | _ => panic' "Unknown assignment constraint type"

/-- scoring.rs:176-218 `satisfies_constraints_assignment`. -/
def satAsg (i : InputData) (s : Scheduling) (a : Assignment) : R Bool :=
  i.asgCons.allM (asgConOk i s a)

/-- scheduling.rs:25-40: accumulate `slot_min`/`slot_max`; `none` = the function returned false. -/
def schedSums (i : InputData) (s : Scheduling) : R (Option (List Nat × List Nat)) :=
  s.zipIdx.foldlM (fun acc e =>
    match acc with
    | none => pure none
    | some (mn, mx) => do
      let ch ← idx i.choices e.2 "choices[choice_index]"
      match e.1 with
      | none => if ch.isOptional then pure (some (mn, mx)) else pure none
      | some t => do
        let m ← idx mn t "slot_min[slot]"
        let m' ← addU32 m ch.min "slot_min += min"
        let x ← idx mx t "slot_max[slot]"
        let x' ← addU32 x ch.max "slot_max += max"
        pure (some (mn.set t m', mx.set t x')))
    (some (List.replicate i.ns 0, List.replicate i.ns 0))

/-- scheduling.rs:24-49 `is_feasible`. -/
def schedFeasible (i : InputData) (s : Scheduling) : R Bool := do
  let n := satU32 i.np
  match ← schedSums i s with
  | none => pure false
  | some (mn, mx) =>
    let ok ← allRange i.ns (fun t => do
      let m ← idx mn t "slot_min"
      let x ← idx mx t "slot_max"
      pure (!(decide (n < m) || decide (x < n))))
    if ok then satSched i s else pure false

end Wassign
