import Verif.Model.Types
import Verif.Model.Fuzzy
/-
input/constraint_expression.rs, input/constraint_builder.rs, integer parsing and printing.
-/
namespace Wassign

/-- constraint_expression.rs:1-9 `AccessorType`. -/
inductive Acc where
  | notSet | chooser | choice | slot | size | integer
deriving DecidableEq, Repr, Inhabited

/-- constraint_expression.rs:11-21 `RelationType`. -/
inductive RelT where
  | eq | neq | gt | lt | geq | leq | contains | notContains
deriving DecidableEq, Repr, Inhabited

/-- constraint_expression.rs:23-29 `ConstraintExpressionAccessor`. -/
structure Accessor where
  kind : Acc
  sub : Acc
  name : Str
  part : Nat
deriving DecidableEq, Repr, Inhabited

/-- constraint_expression.rs:31-41 `ConstraintExpression`. -/
structure CExpr where
  left : Accessor
  rel : RelT
  right : Accessor
deriving DecidableEq, Repr, Inhabited

/-- Decimal digit. -/
def digitChar (n : Nat) : Char := Char.ofNat (48 + n)

/-- The digits of a number, most significant first (`fuel` bounds their count). -/
def natDigitsGo : Nat → Nat → Str
  | 0, _ => []
  | fuel + 1, n => if n < 10 then [digitChar n] else natDigitsGo fuel (n / 10) ++ [digitChar (n % 10)]

/-- `n.to_string()` for an unsigned integer. -/
def natStr (n : Nat) : Str := natDigitsGo (n + 1) n

/-- `value.to_string()` for an `i64`. -/
def intStr (v : Int) : Str := if v < 0 then '-' :: natStr v.natAbs else natStr v.natAbs

def isDigit (c : Char) : Bool := decide (48 ≤ c.toNat) && decide (c.toNat ≤ 57)

/-- The digit loop of `from_str_radix`: `none` on a non-digit or when the value exceeds `bound`. -/
def digitsVal (bound : Nat) : Nat → Str → Option Nat
  | acc, [] => some acc
  | acc, c :: rest =>
    if isDigit c then
      let v := acc * 10 + (c.toNat - 48)
      if v ≤ bound then digitsVal bound v rest else none
    else none

/-- `str::parse::<uN>()` with maximum `bound`: optional `+`, at least one digit. -/
def parseUnsigned (bound : Nat) (s : Str) : Option Nat :=
  match s with
  | [] => none
  | c :: rest =>
    if c = '+' then (if rest.isEmpty then none else digitsVal bound 0 rest)
    else digitsVal bound 0 s

/-- Largest `usize` (64-bit platforms). -/
def usizeMax : Nat := 18446744073709551615

/-- constraint_builder.rs:349-353: `name.parse::<usize>()`. -/
def parseUsize (s : Str) : Option Nat := parseUnsigned usizeMax s

/-- constraint_builder.rs:358-367 `find_name`. -/
def findName (name : Str) (values : List Str) : R (Option Nat) :=
  match fuzzyFind name values with
  | [i] => pure (some i)
  | [] => pure none
  | _ => .error (.error (String.ofList ("The name \"".toList ++ name ++ "\" is ambiguous.".toList)))

/-- constraint_builder.rs:336-346: follow the continuation `part` times; `asked` is the part asked for, for the message. -/
def walkParts (d : InputData) (asked : Nat) : Nat → Nat → R Nat
  | 0, choice => pure choice
  | part + 1, choice => do
    let c ← idx d.choices choice "data.choices[choice]"
    match c.continuation with
    | none => .error (.error (String.ofList ("The given choice doesn't have a part ".toList ++ natStr asked ++ ".".toList)))
    | some next => walkParts d asked part next

/-- constraint_builder.rs:303-356 `resolve_accessor`. The message about a number is that of the only case the interface can produce,
a negative one (the numbers are printed 64-bit signed integers). -/
def resolveAccessor (d : InputData) (a : Accessor) : R (Option Nat) :=
  match a.kind with
  | .slot => findName a.name d.slots
  | .chooser => findName a.name (d.choosers.map (·.name))
  | .choice => do
    match ← findName a.name (d.choices.map (·.name)) with
    | none => pure none
    | some c => do
      let c ← walkParts d a.part a.part c
      pure (some c)
  | .integer =>
    match parseUsize a.name with
    | some n => pure (some n)
    | none => .error (.error "invalid digit found in string")
  | _ => .error (.error "Unexpected accessor type.")

/-- constraint_builder.rs:274-295: the right-hand target; `none` if the name is unknown. -/
def resolveRight (d : InputData) (a : Accessor) : R (Option Target) :=
  match a.kind with
  | .slot => do let r ← resolveAccessor d a; pure (r.map .slot)
  | .choice => do let r ← resolveAccessor d a; pure (r.map .choice)
  | .chooser => do let r ← resolveAccessor d a; pure (r.map .chooser)
  | .integer => do
    match ← resolveAccessor d a with
    | none => panic' "integer accessors always resolve"
    | some n => do
      let l ← toU32 n "constraint integer must fit in u32"
      pure (some (.limit l))
  | _ => pure (some .none)

/-- constraint_builder.rs:267-301 `add_constraint`. -/
def addConstraint (d : InputData) (e : CExpr) (kind : Kind) (extra : Extra) : R (List Constraint) := do
  match ← resolveRight d e.right with
  | none => pure []
  | some right => do
    match ← resolveAccessor d e.left with
    | none => pure []
    | some left => pure [⟨kind, left, right, extra⟩]

/-- constraint_builder.rs:21-248: the supported combinations. -/
def tableKind (e : CExpr) : Option (Kind × Extra) :=
  match e.left.kind, e.left.sub, e.rel, e.right.kind, e.right.sub with
  | .choice, .slot, .eq, .slot, .notSet => some (.choiceIsInSlot, .none)
  | .choice, .slot, .neq, .slot, .notSet => some (.choiceIsNotInSlot, .none)
  | .choice, .slot, .eq, .choice, .slot => some (.choicesAreInSameSlot, .none)
  | .choice, .slot, .neq, .choice, .slot => some (.choicesAreNotInSameSlot, .none)
  | .slot, .choice, .contains, .choice, .notSet => some (.slotContainsChoice, .none)
  | .slot, .choice, .notContains, .choice, .notSet => some (.slotNotContainsChoice, .none)
  | .slot, .choice, .eq, .slot, .choice => some (.slotsHaveSameChoices, .none)
  | .choice, .chooser, .eq, .choice, .chooser => some (.choicesHaveSameChoosers, .none)
  | .chooser, .choice, .contains, .choice, .notSet => some (.chooserIsInChoice, .none)
  | .chooser, .choice, .notContains, .choice, .notSet => some (.chooserIsNotInChoice, .none)
  | .chooser, .choice, .eq, .chooser, .choice => some (.choosersHaveSameChoices, .none)
  | .choice, .chooser, .contains, .chooser, .notSet => some (.choiceContainsChooser, .none)
  | .choice, .chooser, .notContains, .chooser, .notSet => some (.choiceNotContainsChooser, .none)
  | .slot, .size, .eq, .integer, .notSet => some (.slotHasLimitedSize, .limitOp .eq)
  | .slot, .size, .neq, .integer, .notSet => some (.slotHasLimitedSize, .limitOp .neq)
  | .slot, .size, .gt, .integer, .notSet => some (.slotHasLimitedSize, .limitOp .gt)
  | .slot, .size, .lt, .integer, .notSet => some (.slotHasLimitedSize, .limitOp .lt)
  | .slot, .size, .geq, .integer, .notSet => some (.slotHasLimitedSize, .limitOp .geq)
  | .slot, .size, .leq, .integer, .notSet => some (.slotHasLimitedSize, .limitOp .leq)
  | _, _, _, _, _ => none

/-- constraint_builder.rs:251-255: the operands exchanged, the relation kept. -/
def CExpr.swap (e : CExpr) : CExpr := ⟨e.right, e.rel, e.left⟩

/-- constraint_builder.rs:12-265 `ConstraintBuilder::build`. -/
def buildExpr (d : InputData) (e : CExpr) : R (List Constraint) :=
  match tableKind e with
  | some (k, x) => addConstraint d e k x
  | none =>
    match tableKind e.swap with
    | some (k, x) => addConstraint d e.swap k x
    | none => .error (.error "Unsupported constraint.")

end Wassign
