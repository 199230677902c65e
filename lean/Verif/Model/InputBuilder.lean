import Verif.Model.Expr
import Verif.Model.Constraints
/-
input/input_builder.rs: from what the reader collected to `InputData`.
-/
namespace Wassign

/-- proto_choice_data.rs `ProtoChoiceData`. -/
structure Proto where
  name : Str
  min : Nat
  max : Nat
  parts : Nat
  optional : Bool
deriving DecidableEq, Repr, Inhabited

/-- What the builder reads from the `InputReader`: registered slots, choices, choosers (with the
preferences as given) in registration order, and the constraint expressions. -/
structure Raw where
  slots : List Str
  choices : List Proto
  choosers : List Chooser
  exprs : List CExpr
deriving DecidableEq, Repr, Inhabited

namespace Build

/-- input_data.rs: `InputData::GENERATED_SLOT_NAME`. -/
def generatedSlotName : Str := "Generated Slot".toList

/-- input_builder.rs:64-74: one chooser of the length check; the accumulator is `max_preference`. -/
def prefCheck (n : Nat) (m : Nat) (c : Chooser) : R Nat :=
  if c.prefs.length ≠ n then .error (.error (String.ofList ("Wrong number of preferences given for chooser \"".toList ++ c.name ++ "\".".toList)))
  else pure (c.prefs.foldl max m)

/-- input_builder.rs:76-80: one chooser of the mirroring. -/
def mirror (m : Nat) (c : Chooser) : R Chooser := do
  let prefs ← c.prefs.mapM (fun p => subU m p "max_preference - preference")
  pure ⟨c.name, prefs⟩

/-- input_builder.rs:62-83 `build_preferences`. -/
def buildPreferences (raw : Raw) : R (Nat × List Chooser) := do
  let m ← raw.choosers.foldlM (prefCheck raw.choices.length) 0
  let cs ← raw.choosers.mapM (mirror m)
  pure (m, cs)

/-- input_builder.rs:85-95 `build_preference_levels`: the preferences as given, not mirrored. -/
def buildLevels (raw : Raw) (m : Nat) : List Nat :=
  dedup (sortNat (raw.choosers.flatMap (·.prefs) ++ [m, 0]))

/-- input_builder.rs:126-131: `format!("{}[{}] {}", "~", part_index + 1, name)`. -/
def partName (k : Nat) (name : Str) : Str := '~' :: '[' :: (natStr (k + 1) ++ ']' :: ' ' :: name)

/-- input_builder.rs:112-121: the preference at `index` repeated `parts` times. -/
def expandPrefs (index parts : Nat) (prefs : List Nat) : List Nat :=
  prefs.zipIdx.flatMap (fun e => List.replicate (if e.2 = index then parts else 1) e.1)

/-- State of the loop of `compile_choices`: next index, choices, choosers. -/
structure CState where
  next : Nat
  choices : List Choice
  choosers : List Chooser
deriving DecidableEq, Repr

/-- input_builder.rs:124-138: one further part. -/
def addPart (p : Proto) (st : CState) (k : Nat) : CState :=
  { st with
    choices := st.choices ++ [⟨partName k p.name, p.min, p.max,
      if k ≠ p.parts - 1 then some (st.next + 1) else none, p.optional⟩]
    next := st.next + 1 }

/-- input_builder.rs:99-140: one registered choice. -/
def compileStep (st : CState) (p : Proto) : CState :=
  let st1 : CState := { st with
    choices := st.choices ++ [⟨p.name, p.min, p.max, if p.parts > 1 then some (st.next + 1) else none, p.optional⟩]
    next := st.next + 1 }
  if p.parts > 1 then
    let st2 := { st1 with choosers := st1.choosers.map (fun c => ⟨c.name, expandPrefs (st1.next - 1) p.parts c.prefs⟩) }
    (List.range' 1 (p.parts - 1)).foldl (addPart p) st2
  else st1

/-- input_builder.rs:97-141 `compile_choices`. -/
def compileChoices (raw : Raw) (choosers : List Chooser) : CState :=
  raw.choices.foldl compileStep ⟨0, [], choosers⟩

/-- input_builder.rs:197-201: one choice of `compute_part_constraints`. -/
def contStep (u : UF) (e : Choice × Nat) : R UF :=
  match e.1.continuation with
  | some next => u.join e.2 next
  | none => pure u

/-- input_builder.rs:205-222: the two constraints of a pair; `e` pairs an element with its position. -/
def partPair (a b : Nat × Nat) : R (List Constraint) := do
  let o ← toI32 (b.2 - a.2) "offset must fit in i32"
  pure [⟨.choicesHaveSameChoosers, a.1, .choice b.1, .none⟩, ⟨.choicesHaveOffset, a.1, .choice b.1, .offset o⟩]

/-- input_builder.rs:205-222: all pairs of a group. -/
def groupPairs : List (Nat × Nat) → R (List Constraint)
  | [] => pure []
  | a :: rest => do
    let here ← rest.mapM (partPair a)
    let more ← groupPairs rest
    pure (here.flatten ++ more)

/-- input_builder.rs:195-224 `compute_part_constraints`. -/
def partConstraints (choices : List Choice) : R (List Constraint) := do
  let u ← UF.new choices.length
  let u ← choices.zipIdx.foldlM contStep u
  let groups ← u.groups
  let cs ← groups.mapM (fun g => groupPairs (sortNat g).zipIdx)
  pure cs.flatten

/-- input_builder.rs:238-244: one choice of the first loop of `get_dependent_choice_limits`. -/
def limitStep (u : UF) (limits : List (Nat × Nat)) (e : Choice × Nat) : R (List (Nat × Nat)) := do
  let g ← u.find e.2
  let l ← idx limits g "limits[group]"
  setIdx limits g (max l.1 e.1.min, min l.2 e.1.max) "limits[group]"

/-- input_builder.rs:245-247: one choice of the second loop. -/
def limitCopy (u : UF) (limits : List (Nat × Nat)) (c : Nat) : R (List (Nat × Nat)) := do
  let g ← u.find c
  let l ← idx limits g "limits[group]"
  setIdx limits c l "limits[choice]"

/-- input_builder.rs:226-249 `get_dependent_choice_limits`. -/
def dependentLimits (choices : List Choice) (cons : List Constraint) : R (List (Nat × Nat)) := do
  let u ← UF.new choices.length
  let u ← cons.foldlM depStep u
  let limits ← choices.zipIdx.foldlM (limitStep u) (List.replicate choices.length (0, u32Max))
  (List.range choices.length).foldlM (limitCopy u) limits

/-- input_builder.rs:269-271. -/
def setAll (v : Nat) (row : List Nat) (c : Nat) : R (List Nat) := setIdx row c v "prefs_row[choice]"

/-- input_builder.rs:263-272: one group for one chooser. -/
def groupPref (row : List Nat) (g : List Nat) : R (List Nat) := do
  let vs ← g.mapM (fun c => idx row c "prefs_row[choice]")
  g.foldlM (setAll ((vs.min?).getD u32Max)) row

/-- input_builder.rs:275-279: one constraint of the last loop. -/
def zeroStep (prefs : List (List Nat)) (c : Constraint) : R (List (List Nat)) :=
  if c.kind = .chooserIsInChoice then do
    let y ← c.otherChoice
    let row ← idx prefs c.left "prefs[chooser]"
    let row ← setIdx row y 0 "prefs[chooser][choice]"
    setIdx prefs c.left row "prefs[chooser]"
  else pure prefs

/-- input_builder.rs:251-282 `get_dependent_preferences`. -/
def dependentPreferences (nc : Nat) (choosers : List Chooser) (cons : List Constraint) : R (List (List Nat)) := do
  let groups ← getDependentChoices cons nc
  let prefs ← choosers.mapM (fun c => groups.foldlM groupPref c.prefs)
  cons.foldlM zeroStep prefs

/-- input_builder.rs:164-172: one choice with its new limits. -/
def withLimits (limits : List (Nat × Nat)) (e : Choice × Nat) : R Choice := do
  let l ← idx limits e.2 "new_limits[index]"
  pure { e.1 with min := l.1, max := l.2 }

/-- input_builder.rs:174-179: one chooser with its new preferences. -/
def withPrefs (prefs : List (List Nat)) (e : Chooser × Nat) : R Chooser := do
  let r ← idx prefs e.2 "new_prefs[index]"
  pure ⟨e.1.name, r⟩

/-- `map.get_mut(&k).expect(..).push(v)` on a `BTreeMap` kept as an association list. -/
def pushAt (k : Nat) (v : Constraint) : List (Nat × List Constraint) → R (List (Nat × List Constraint))
  | [] => panic' "map entry must exist"
  | (k', l) :: t => if k' = k then pure ((k', l ++ [v]) :: t) else do
      let t' ← pushAt k v t
      pure ((k', l) :: t')

/-- input_builder.rs:296-358: one scheduling constraint of `build_constraint_maps`; the accumulator is
(choice map, chooser map). -/
def mapStep (nc np : Nat) (m : List (Nat × List Constraint) × List (Nat × List Constraint)) (c : Constraint) :
    R (List (Nat × List Constraint) × List (Nat × List Constraint)) :=
  match c.kind with
  | .choiceIsInSlot | .choiceIsNotInSlot => do
    let a ← pushAt c.left c m.1
    pure (a, m.2)
  | .choicesAreInSameSlot | .choicesAreNotInSameSlot | .choicesHaveOffset => do
    let a ← pushAt c.left c m.1
    let y ← c.otherChoice
    let a ← pushAt y c a
    pure (a, m.2)
  | .chooserIsInChoice | .chooserIsNotInChoice => do
    let b ← pushAt c.left c m.2
    pure (m.1, b)
  | .choosersHaveSameChoices => do
    let b ← pushAt c.left c m.2
    let y ← c.otherChooser
    let b ← pushAt y c b
    pure (m.1, b)
  | .choicesHaveSameChoosers => do
    let b ← (List.range np).foldlM (fun b p => pushAt p c b) m.2
    pure (m.1, b)
  | .slotHasLimitedSize => do
    let a ← (List.range nc).foldlM (fun a x => pushAt x c a) m.1
    pure (a, m.2)
  | _ => panic' "Unknown constraint type"

/-- input_builder.rs:284-359 `build_constraint_maps`. -/
def constraintMaps (nc np : Nat) (sched : List Constraint) :
    R (List (Nat × List Constraint) × List (Nat × List Constraint)) :=
  sched.foldlM (mapStep nc np) ((List.range nc).map (fun c => (c, [])), (List.range np).map (fun p => (p, [])))

/-- The data before `build_constraints`. -/
def stage1 (raw : Raw) (m : Nat) (cs : List Chooser) : InputData :=
  let st := compileChoices raw cs
  { choices := st.choices
    choosers := st.choosers
    slots := if raw.slots.isEmpty then [generatedSlotName] else raw.slots
    schedCons := [], asgCons := [], depGroups := []
    prefLevels := buildLevels raw m
    maxPref := m
    choiceConMap := [], chooserConMap := [] }

/-- input_builder.rs:144-152: the constraints as written, followed by those of the parts. -/
def writtenConstraints (raw : Raw) (d : InputData) : R (List Constraint) := do
  let ex ← raw.exprs.mapM (buildExpr d)
  let ps ← partConstraints d.choices
  pure (ex.flatten ++ ps)

/-- input_builder.rs:143-193 `build_constraints`. -/
def buildConstraints (raw : Raw) (d : InputData) : R InputData := do
  let written ← writtenConstraints raw d
  let r ← reduceAndOptimize written d.choices.length
  if r.2 then .error (.error "The given constraints are not satisfiable.")
  else do
    let limits ← dependentLimits d.choices r.1
    let prefs ← dependentPreferences d.choices.length d.choosers r.1
    let choices ← d.choices.zipIdx.mapM (withLimits limits)
    let choosers ← d.choosers.zipIdx.mapM (withPrefs prefs)
    let groups ← getDependentChoices r.1 choices.length
    pure { d with
      choices := choices
      choosers := choosers
      schedCons := r.1.filter (·.isScheduling)
      asgCons := r.1.filter (·.isAssignment)
      depGroups := groups }

/-- input_builder.rs:14-53 `process_input_reader`. -/
def build (raw : Raw) : R InputData := do
  let (m, cs) ← buildPreferences raw
  let d ← buildConstraints raw (stage1 raw m cs)
  let maps ← constraintMaps d.choices.length d.choosers.length d.schedCons
  pure { d with choiceConMap := maps.1, chooserConMap := maps.2 }

end Build
end Wassign
