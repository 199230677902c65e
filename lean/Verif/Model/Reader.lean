import Verif.Model.InputBuilder
import Verif.Model.Options
/-
input/rhai_interface.rs and input/input_reader.rs: the functions a script can call, and reading an input.

The Rhai interpreter is not modelled. A script is an arbitrary tree of interface calls: what it does next may depend
on everything the interface has answered so far, and a failed call may be caught (`try`/`catch`) or not. The three
kinds of objects are handled by the same code three times in the source; here it is written once (`Pool`).
-/
namespace Wassign

/-- Objects with a name that can be changed (`slot.name`, `choice.name`, `chooser.name`). -/
class Named (α : Type) where
  name : α → Str
  rename : α → Str → α

instance : Named Str := ⟨id, fun _ n => n⟩
instance : Named Proto := ⟨Proto.name, fun p n => { p with name := n }⟩
instance : Named Chooser := ⟨Chooser.name, fun p n => { p with name := n }⟩

/-- input_slot_data.rs, input_choice_data.rs, input_chooser_data.rs, input_object.rs. -/
structure Obj (α : Type) where
  data : α
  registered : Bool
deriving DecidableEq, Repr

/-- rhai_interface.rs:19-28: the objects of one kind and the ids of the registered ones. -/
structure Pool (α : Type) where
  objs : List (Obj α)
  ids : List Nat
deriving DecidableEq, Repr

/-- rhai_interface.rs:19-28 `ReaderState`. -/
structure RState where
  slots : Pool Str
  choices : Pool Proto
  choosers : Pool Chooser
  exprs : List CExpr
deriving DecidableEq, Repr

/-- `ReaderState::default()`. -/
def RState.empty : RState := ⟨⟨[], []⟩, ⟨[], []⟩, ⟨[], []⟩, []⟩

namespace Pool
variable {α : Type}

/-- rhai_interface.rs:615-652: the registered objects, in registration order. -/
def registered (p : Pool α) : R (List (Nat × α)) :=
  p.ids.mapM (fun i => do
    let o ← idx p.objs i "state.objects[id]"
    pure (i, o.data))

/-- rhai_interface.rs:654-672 `find_registered_name`. -/
def lookup [Named α] (p : Pool α) (name : Str) : R (Option Nat) := do
  let values ← p.registered
  let m := fuzzyFind name (values.map (fun v => Named.name v.2))
  if m.length > 1 then .error (.error "The name is ambiguous.")
  else
    match m with
    | [] => pure none
    | i :: _ => do
      let v ← idx values i "values[index]"
      pure (some v.1)

/-- rhai_interface.rs:385-394, 437-444, 456-466: a new object, not registered; returns its id. -/
def push (x : α) : M (Pool α) Nat := do
  let p ← M.get
  M.set { p with objs := p.objs ++ [⟨x, false⟩] }
  pure p.objs.length

/-- rhai_interface.rs:547-603 `register_slot`, `register_choice`, `register_chooser`. -/
def register [Named α] (id : Nat) : M (Pool α) Unit := do
  let p ← M.get
  let o ← M.lift (idx p.objs id "state.objects[id]")
  let clash ← M.lift (p.ids.anyM (fun j =>
    if j ≠ id then do
      let o' ← idx p.objs j "state.objects[id]"
      pure (Named.name o'.data == Named.name o.data)
    else pure false))
  if clash then M.lift (.error (.error "Duplicate name."))
  else if p.ids.contains id then pure ()
  else do
    M.set { p with ids := p.ids ++ [id] }
    let p ← M.get
    let o ← M.lift (idx p.objs id "state.objects[id]")
    M.set { p with objs := p.objs.set id { o with registered := true } }

/-- rhai_interface.rs:852-859, 895-902, 956-963 `set_name`. -/
def rename [Named α] (id : Nat) (name : Str) : M (Pool α) Unit := do
  let p ← M.get
  let o ← M.lift (idx p.objs id "state.objects[id]")
  M.set { p with objs := p.objs.set id { o with data := Named.rename o.data name } }

/-- rhai_interface.rs:838-846, 881-889, 942-950 `name_value`. -/
def nameOf [Named α] (p : Pool α) (id : Nat) : R Str := do
  let o ← idx p.objs id "state.objects[id]"
  pure (Named.name o.data)

end Pool

/-- tagged.rs:1-8 `Tag`. -/
inductive TagKind where
  | min | max | bounds | parts | optional
deriving DecidableEq, Repr

/-- tagged.rs:10-24 `Tagged`; the values are `i32`. -/
structure Tagged where
  tag : TagKind
  values : List Int
deriving DecidableEq, Repr

/-- `u32::try_from(v)` for a signed `v`. -/
def u32OfInt (v : Int) : R Nat :=
  if 0 ≤ v ∧ v ≤ 4294967295 then pure v.toNat else .error (.error "out of range integral type conversion attempted")

/-- `str::parse::<i64>()`. -/
def parseI64 (s : Str) : Option Int :=
  match s with
  | [] => none
  | c :: rest =>
    if c = '-' then (if rest.isEmpty then none else (digitsVal 9223372036854775808 0 rest).map (fun (n : Nat) => -(n : Int)))
    else if c = '+' then (if rest.isEmpty then none else (digitsVal 9223372036854775807 0 rest).map (fun (n : Nat) => (n : Int)))
    else (digitsVal 9223372036854775807 0 s).map (fun (n : Nat) => (n : Int))

/-- rhai_interface.rs:693-698 `parse_string_uint`. -/
def parseStringUint (s : Str) : R Nat := do
  let v ← orErr (parseI64 s) "invalid digit found in string"
  u32OfInt v

/-- rhai_interface.rs:202-204: `i32::try_from(value)` for a `u32`. -/
def i32OfU32 (n : Nat) : R Int :=
  if n ≤ i32Max then pure (n : Int) else .error (.error "out of range integral type conversion attempted")

/-- rhai_interface.rs:197-199, 207-209, 217-219: `min`, `max` and `parts` of an integer: `value as i32`. -/
def tagInt (k : TagKind) (v : Int) : Tagged := ⟨k, [asI32 v]⟩

/-- rhai_interface.rs:200-206, 210-216, 220-226: `min`, `max` and `parts` of a string. -/
def tagStr (k : TagKind) (s : Str) : R Tagged := do
  let n ← parseStringUint s
  let v ← i32OfU32 n
  pure ⟨k, [v]⟩

/-- rhai_interface.rs:227-229: `bounds` of two integers. -/
def boundsInt (a b : Int) : Tagged := ⟨.bounds, [asI32 a, asI32 b]⟩

/-- rhai_interface.rs:230-244: `bounds` of two strings. -/
def boundsStr (a b : Str) : R Tagged := do
  let x ← parseStringUint a
  let y ← parseStringUint b
  let x ← i32OfU32 x
  let y ← i32OfU32 y
  pure ⟨.bounds, [x, y]⟩

/-- rhai_interface.rs:270: the constant `optional`. -/
def optionalTag : Tagged := ⟨.optional, [1]⟩

/-- rhai_interface.rs:245-247 `optional_if`. -/
def optionalIf (b : Bool) : Tagged := ⟨.optional, [if b then 1 else 0]⟩

/-- rhai_interface.rs:413-435: one tag of a choice. -/
def applyTag (p : Proto) (t : Tagged) : R Proto :=
  match t.tag with
  | .min => do
    let v ← idx t.values 0 "tag.value(0)"
    let n ← u32OfInt v
    pure { p with min := n }
  | .max => do
    let v ← idx t.values 0 "tag.value(0)"
    let n ← u32OfInt v
    pure { p with max := n }
  | .bounds => do
    let v ← idx t.values 0 "tag.value(0)"
    let n ← u32OfInt v
    let w ← idx t.values 1 "tag.value(1)"
    let m ← u32OfInt w
    pure { p with
      min := n
      max := m }
  | .parts => do
    let v ← idx t.values 0 "tag.value(0)"
    let n ← u32OfInt v
    pure { p with parts := n }
  | .optional => do
    let v ← idx t.values 0 "tag.value(0)"
    pure { p with optional := v == 1 }

/-- rhai_interface.rs:406-412: the defaults of a choice. -/
def defaultProto (name : Str) : Proto := ⟨name, 1, 1, 1, false⟩

/-- rhai_interface.rs:678-688: one preference of a chooser. -/
def dynPref : Dyn → R Nat
  | .int v => u32OfInt v
  | .int32 v => u32OfInt v
  | .str s => parseStringUint s
  | .other => .error (.error "Unsupported chooser preference value.")

namespace Reader

/-- rhai_interface.rs:380-395 `slot`; 447-467 `chooser` (once the preferences are converted). -/
def findOrPush {α : Type} [Named α] (name : Str) (x : α) : M (Pool α) Nat := do
  let p ← M.get
  match ← M.lift (p.lookup name) with
  | some id => pure id
  | none => Pool.push x

/-- rhai_interface.rs:397-445 `choice`. -/
def choice (name : Str) (tags : List Tagged) : M (Pool Proto) Nat := do
  let p ← M.get
  match ← M.lift (p.lookup name) with
  | some id => pure id
  | none => do
    let x ← M.lift (tags.foldlM applyTag (defaultProto name))
    Pool.push x

/-- rhai_interface.rs:105-112 and 447-467 `chooser`: the preferences are converted first (674-691). -/
def chooser (name : Str) (prefs : List Dyn) : M (Pool Chooser) Nat := do
  let ps ← M.lift (prefs.mapM dynPref)
  findOrPush name ⟨name, ps⟩

end Reader

/-- The three kinds of objects. -/
inductive ObjKind where
  | slot | choice | chooser
deriving DecidableEq, Repr

namespace Rhai

/-- `usize::try_from(v)`. -/
def usizeOfInt (v : Int) : R Nat :=
  if 0 ≤ v then pure v.toNat else .error (.error "out of range integral type conversion attempted")

/-- rhai_interface.rs:801-808, 810-817, 819-826: an object itself in a constraint. -/
def objAcc (k : ObjKind) (name : Str) : Accessor :=
  match k with
  | .slot => ⟨.slot, .notSet, name, 0⟩
  | .choice => ⟨.choice, .notSet, name, 0⟩
  | .chooser => ⟨.chooser, .notSet, name, 0⟩

/-- rhai_interface.rs:828-835 `integer_accessor`. -/
def intAcc (v : Int) : Accessor := ⟨.integer, .notSet, intStr v, 0⟩

/-- rhai_interface.rs:861-868 and 870-877: `slot.choices`, `slot.size`. -/
def slotChoices (name : Str) : Accessor := ⟨.slot, .choice, name, 0⟩
def slotSize (name : Str) : Accessor := ⟨.slot, .size, name, 0⟩

/-- rhai_interface.rs:904-911, 922-929: `choice.slot` and `choice.slot(part)`. -/
def choiceSlot (name : Str) : Accessor := ⟨.choice, .slot, name, 0⟩
def choiceSlotPart (name : Str) (part : Int) : R Accessor := do
  let k ← usizeOfInt part
  pure ⟨.choice, .slot, name, k⟩

/-- rhai_interface.rs:913-920, 931-938: `choice.choosers` and `choice.choosers(part)`. -/
def choiceChoosers (name : Str) : Accessor := ⟨.choice, .chooser, name, 0⟩
def choiceChoosersPart (name : Str) (part : Int) : R Accessor := do
  let k ← usizeOfInt part
  pure ⟨.choice, .chooser, name, k⟩

/-- rhai_interface.rs:965-972: `chooser.choices`. -/
def chooserChoices (name : Str) : Accessor := ⟨.chooser, .choice, name, 0⟩

/-- The properties of objects a script can use in constraints (rhai_interface.rs:163-177). -/
inductive Attr where
  | choices | size | slot | slotPart (part : Int) | choosers | choosersPart (part : Int)
deriving DecidableEq, Repr

/-- The values a script can compare: an object, a property, an integer. -/
inductive Term where
  | obj (k : ObjKind) (id : Nat)
  | acc (a : Accessor)
  | int (v : Int)
deriving DecidableEq, Repr

/-- rhai_interface.rs:838-846, 881-889, 942-950 `name_value` of the three kinds. -/
def nameValue (st : RState) (k : ObjKind) (id : Nat) : R Str :=
  match k with
  | .slot => st.slots.nameOf id
  | .choice => st.choices.nameOf id
  | .chooser => st.choosers.nameOf id

/-- rhai_interface.rs:162-177: a property of an object. Other properties are unknown to the interpreter (an error). -/
def attr (st : RState) (k : ObjKind) (id : Nat) (a : Attr) : R Accessor := do
  let name ← nameValue st k id
  match k, a with
  | .slot, .choices => pure (slotChoices name)
  | .slot, .size => pure (slotSize name)
  | .choice, .slot => pure (choiceSlot name)
  | .choice, .slotPart part => choiceSlotPart name part
  | .choice, .choosers => pure (choiceChoosers name)
  | .choice, .choosersPart part => choiceChoosersPart name part
  | .chooser, .choices => pure (chooserChoices name)
  | _, _ => .error (.error "Unknown property.")

/-- rhai_interface.rs:185-190: the operators registered by `register_relation`. -/
def relationOf (symbol : String) : Option RelT :=
  [("==", RelT.eq), ("!=", RelT.neq), (">", RelT.gt), ("<", RelT.lt), (">=", RelT.geq), ("<=", RelT.leq)].lookup symbol

/-- rhai_interface.rs:191-192: the functions registered by `register_contains`. -/
def containmentOf (symbol : String) : Option RelT :=
  [("contains", RelT.contains), ("contains_not", RelT.notContains)].lookup symbol

/-- rhai_interface.rs:368-378 `build_expression`. -/
def buildExpression (left : Accessor) (rel : RelT) (right : Accessor) : CExpr := ⟨left, rel, right⟩

/-- rhai_interface.rs:296-366 `register_relation`, `register_contains`: an operator or function applied to two values. For
all other combinations no function is registered: the interpreter answers with an error or a truth value, which is never
a constraint (here an error). -/
def relate (st : RState) (symbol : String) (l r : Term) : R CExpr :=
  match relationOf symbol with
  | some rel =>
    match l, r with
    | .acc a, .acc b => pure (buildExpression a rel b)
    | .acc a, .obj k id => do
      let name ← nameValue st k id
      pure (buildExpression a rel (objAcc k name))
    | .obj k id, .acc b => do
      let name ← nameValue st k id
      pure (buildExpression (objAcc k name) rel b)
    | .acc a, .int v => pure (buildExpression a rel (intAcc v))
    | .int v, .acc b => pure (buildExpression (intAcc v) rel b)
    | _, _ => .error (.error "Function not found.")
  | none =>
    match containmentOf symbol with
    | some rel =>
      match l, r with
      | .acc a, .obj k id => do
        let name ← nameValue st k id
        pure (buildExpression a rel (objAcc k name))
      | _, _ => .error (.error "Function not found.")
    | none => .error (.error "Function not found.")

end Rhai

/-- The calls of a script that read or change the state of the reader. -/
inductive Op where
  | slot (name : Str)
  | choice (name : Str) (tags : List Tagged)
  | chooser (name : Str) (prefs : List Dyn)
  | add (k : ObjKind) (id : Nat)
  | addExpr (e : CExpr)
  | setName (k : ObjKind) (id : Nat) (name : Str)
  | getName (k : ObjKind) (id : Nat)
  | attr (k : ObjKind) (id : Nat) (a : Rhai.Attr)
  | relate (symbol : String) (l r : Rhai.Term)
  | setArguments (args : List Dyn)
deriving DecidableEq, Repr

/-- What a successful call answers. -/
inductive Reply where
  | ref (id : Nat)
  | name (s : Str)
  | accessor (a : Accessor)
  | expr (e : CExpr)
  | unit
deriving DecidableEq, Repr

/-- What the calls act on: reader state and options. -/
structure World (F : Type) where
  st : RState
  opts : Opts F
deriving DecidableEq, Repr

namespace Reader
variable {F : Type}

/-- A call that works on one part of the state. -/
def onSlots {β : Type} (m : M (Pool Str) β) : M (World F) β := fun w =>
  ((m w.st.slots).1, { w with st := { w.st with slots := (m w.st.slots).2 } })
def onChoices {β : Type} (m : M (Pool Proto) β) : M (World F) β := fun w =>
  ((m w.st.choices).1, { w with st := { w.st with choices := (m w.st.choices).2 } })
def onChoosers {β : Type} (m : M (Pool Chooser) β) : M (World F) β := fun w =>
  ((m w.st.choosers).1, { w with st := { w.st with choosers := (m w.st.choosers).2 } })
def onOpts {β : Type} (m : M (Opts F) β) : M (World F) β := fun w =>
  ((m w.opts).1, { w with opts := (m w.opts).2 })

/-- rhai_interface.rs:71-160: one call. -/
def exec (env : OptEnv F) : Op → M (World F) Reply
  | .slot n => do
    let id ← onSlots (findOrPush n n)
    pure (.ref id)
  | .choice n tags => do
    let id ← onChoices (choice n tags)
    pure (.ref id)
  | .chooser n prefs => do
    let id ← onChoosers (chooser n prefs)
    pure (.ref id)
  | .add k id => do
    match k with
    | .slot => onSlots (Pool.register id)
    | .choice => onChoices (Pool.register id)
    | .chooser => onChoosers (Pool.register id)
    pure (.ref id)
  | .addExpr e => do
    let w ← M.get
    M.set { w with st := { w.st with exprs := w.st.exprs ++ [e] } }
    pure .unit
  | .setName k id n => do
    match k with
    | .slot => onSlots (Pool.rename id n)
    | .choice => onChoices (Pool.rename id n)
    | .chooser => onChoosers (Pool.rename id n)
    pure (.ref id)
  | .getName k id => do
    let w ← M.get
    let s ← match k with
      | .slot => M.lift (w.st.slots.nameOf id)
      | .choice => M.lift (w.st.choices.nameOf id)
      | .chooser => M.lift (w.st.choosers.nameOf id)
    pure (.name s)
  | .attr k id a => do
    let w ← M.get
    let x ← M.lift (Rhai.attr w.st k id a)
    pure (.accessor x)
  | .relate symbol l r => do
    let w ← M.get
    let e ← M.lift (Rhai.relate w.st symbol l r)
    pure (.expr e)
  | .setArguments args => do
    onOpts (setArguments env args)
    pure .unit

/-- A script: finished, stopped by an error of its own, or a call whose answer (`none`: it failed) decides what
happens next. -/
inductive Script where
  | done
  | fail
  | call (op : Op) (next : Option Reply → Script)

/-- One call of a run: the call and its answer (`none`: it failed with an error). -/
structure Event where
  op : Op
  reply : Option Reply
deriving DecidableEq, Repr

/-- How a run ends. -/
inductive Ending where
  | finished
  | failed
  | panicked (site : String)
deriving DecidableEq, Repr

/-- input_reader.rs:77-80: evaluating the script; a panic ends everything. Also returns the calls made, in order (a
ghost: only the script sees them). -/
def run (env : OptEnv F) : Script → World F → List Event × World F × Ending
  | .done, w => ([], w, .finished)
  | .fail, w => ([], w, .failed)
  | .call op next, w =>
    match exec env op w with
    | (.ok r, w') =>
      let rest := run env (next (some r)) w'
      (⟨op, some r⟩ :: rest.1, rest.2)
    | (.error (.error _), w') =>
      let rest := run env (next none) w'
      (⟨op, none⟩ :: rest.1, rest.2)
    | (.error (.panic s), w') => ([], w', .panicked s)

/-- What `sync_from_state` copies into the reader (input_reader.rs:18-30); the maps by name are not read by anything
but tests and are left out. -/
structure Synced where
  sets : List Str
  choices : List Proto
  choosers : List Chooser
  objects : List Bool
  exprs : List CExpr
deriving DecidableEq, Repr

/-- input_reader.rs:117-172 `sync_from_state`. -/
def sync (st : RState) : R Synced := do
  let ss ← st.slots.registered
  let cs ← st.choices.registered
  let ps ← st.choosers.registered
  pure {
    sets := ss.map (·.2)
    choices := cs.map (·.2)
    choosers := ps.map (·.2)
    objects := st.slots.objs.map (·.registered) ++ st.choices.objs.map (·.registered) ++ st.choosers.objs.map (·.registered)
    exprs := st.exprs }

/-- input_reader.rs:18-30 `InputReader`: what persists between two reads. -/
structure InputReader (F : Type) where
  world : World F
  synced : Synced
deriving DecidableEq, Repr

/-- input_reader.rs:35-55 `InputReader::new`. -/
def new (opts : Opts F) : InputReader F := ⟨⟨.empty, opts⟩, ⟨[], [], [], [], []⟩⟩

/-- input_reader.rs:91-114: the checks, and building the input data from the synced fields. -/
def finish (s : Synced) : R InputData :=
  if s.objects.any (fun b => !b) then .error (.error "Newly created object not used. Did you try to access an existing one instead of creating a new one?")
  else if s.choices.isEmpty then .error (.error "No choices defined in input.")
  else if s.choosers.isEmpty then .error (.error "No choosers defined in input.")
  else Build.build ⟨s.sets, s.choices, s.choosers, s.exprs⟩

/-- input_reader.rs:66-115 `read_input`: the result, and the reader afterwards. -/
def readInput (env : OptEnv F) (r : InputReader F) (script : Script) : R InputData × InputReader F :=
  let out := run env script { r.world with st := .empty }
  match out.2.2 with
  | .failed => (.error (.error "script error"), { r with world := out.2.1 })
  | .panicked s => (panic' s, { r with world := out.2.1 })
  | .finished =>
    match sync out.2.1.st with
    | .error f => (.error f, { r with world := out.2.1 })
    | .ok s => (finish s, ⟨out.2.1, s⟩)

/-- input_reader.rs:180-185 `effective_options`. -/
def effectiveOptions (r : InputReader F) : Opts F := r.world.opts

end Reader

namespace Rhai

/-- rhai_interface.rs:725-727: the loop `for value in from..=to`, with the number of turns left. -/
def rangeGo : Nat → Int → List Int
  | 0, _ => []
  | n + 1, v => v :: rangeGo n (v + 1)

/-- rhai_interface.rs:722-730 `range`. -/
def range (a b : Int) : List Int :=
  if a ≤ b then rangeGo ((b - a).toNat + 1) a else []

/-- The constant `end` (rhai_interface.rs:271): `i64::MAX`. -/
def end' : Int := 9223372036854775807

/-- rhai_interface.rs:732-766 `slice`. -/
def slice {α : Type} (values : List α) (a b : Int) : R (List α) :=
  if a < 0 ∨ b < 0 then .error (.error "An array can not be sliced.")
  else if a.toNat ≥ values.length then .error (.error "An array can not be sliced.")
  else if b = end' then
    let to := values.length - 1
    if a.toNat > to then pure [] else pure ((values.drop a.toNat).take (to + 1 - a.toNat))
  else if b.toNat ≥ values.length then .error (.error "An array can not be sliced.")
  else if a.toNat > b.toNat then pure []
  else pure ((values.drop a.toNat).take (b.toNat + 1 - a.toNat))

/-- rhai_interface.rs:773-780 `row_accessor`; rows of a CSV document. -/
def row (rows : List (List Str)) (i : Int) : R (List Str) := do
  let k ← usizeOfInt i
  match rows[k]? with
  | some r => pure r
  | none => .error (.error "CSV row is out of bounds.")

/-- rhai_interface.rs:782-790 `index_accessor`. -/
def rowIndex (rows : List (List Str)) (i : Int) : List Str :=
  if 0 ≤ i then (rows[i.toNat]?).getD [] else []

end Rhai
end Wassign
