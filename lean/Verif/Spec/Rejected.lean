import Verif.Spec.Made
import Verif.Spec.Names
import Verif.Spec.Parts
/-
What can be wrong with an input, in terms of the calls of the script.
-/
namespace Wassign.Spec
open Reader

/-- Number `i` of the names matches the key, and no name matches it in a better way. -/
def BestMatch (key : Str) (names : List Str) (i : Nat) : Prop :=
  ∃ (lvl : Fin 4) (v : Str), names[i]? = some v ∧ Matches lvl key v ∧
    ∀ better : Fin 4, better < lvl → ∀ w ∈ names, ¬ Matches better key w

/-- The key is nobody's name, the name of number `i` alone, or of more than one. -/
def Unknown (key : Str) (names : List Str) : Prop := ∀ i, ¬ BestMatch key names i
def OnlyName (key : Str) (names : List Str) (i : Nat) : Prop := BestMatch key names i ∧ ∀ j, BestMatch key names j → j = i
def Ambiguous (key : Str) (names : List Str) : Prop := ∃ i j, i ≠ j ∧ BestMatch key names i ∧ BestMatch key names j

/-- The name of part `j` (from 0) of a choice: further parts are called `~[2] name`, `~[3] name` and so on. -/
def partTitle (p : Proto) (j : Nat) : Str := if j = 0 then p.name else "~[".toList ++ natStr (j + 1) ++ "] ".toList ++ p.name

/-- The names among which an object of a constraint is looked for. -/
def namesFor (raw : Raw) : Acc → List Str
  | .slot => if raw.slots = [] then ["Generated Slot".toList] else raw.slots
  | .choice => raw.choices.flatMap (fun p => (List.range (width p)).map (partTitle p))
  | .chooser => raw.choosers.map (·.name)
  | _ => []

/-- Objects that are referred to by name. -/
def ByName (k : Acc) : Prop := k = .slot ∨ k = .choice ∨ k = .chooser

/-- `s` is a number without a minus sign that has 64 bits. -/
def Unsigned64 (s : Str) : Prop := ∃ n : Nat, Numeral s n ∧ s.head? ≠ some '-' ∧ n ≤ 18446744073709551615

/-- There is a constraint of this form (doc/src/Manual.md, section "Constraints"): the slot of a choice is a slot or that of another
choice, or is not; a slot, a chooser contains a choice or a choice a chooser, or does not; the choices of two slots, the choosers
of two choices or the choices of two choosers are the same; the size of a slot compared to a number. -/
def Fits (l : Accessor) (rel : RelT) (r : Accessor) : Prop :=
  match l.kind, l.sub, r.kind, r.sub with
  | .choice, .slot, .slot, .notSet | .choice, .slot, .choice, .slot => rel = .eq ∨ rel = .neq
  | .slot, .choice, .choice, .notSet | .chooser, .choice, .choice, .notSet | .choice, .chooser, .chooser, .notSet =>
      rel = .contains ∨ rel = .notContains
  | .slot, .choice, .slot, .choice | .choice, .chooser, .choice, .chooser | .chooser, .choice, .chooser, .choice => rel = .eq
  | .slot, .size, .integer, .notSet => rel ≠ .contains ∧ rel ≠ .notContains
  | _, _, _, _ => False

/-- The sides of a constraint, in the order in which there is such a constraint. -/
def Sides (e : CExpr) (l r : Accessor) : Prop :=
  (Fits e.left e.rel e.right ∧ l = e.left ∧ r = e.right) ∨
  (¬ Fits e.left e.rel e.right ∧ Fits e.right e.rel e.left ∧ l = e.right ∧ r = e.left)

/-- Something is wrong with one side of a constraint, and how this is reported. -/
inductive Trouble (raw : Raw) (a : Accessor) : String → Prop
  | ambiguous : ByName a.kind → Ambiguous a.name (namesFor raw a.kind) → 
      Trouble raw a (String.ofList ("The name \"".toList ++ a.name ++ "\" is ambiguous.".toList))
  | noSuchPart {k j c : Nat} {p : Proto} : a.kind = .choice → OnlyName a.name (namesFor raw .choice) c → IsPart raw.choices k j c →
      raw.choices[k]? = some p → width p ≤ j + a.part → 
      Trouble raw a (String.ofList ("The given choice doesn't have a part ".toList ++ natStr a.part ++ ".".toList))
  | noNumber : a.kind = .integer → ¬ Unsigned64 a.name → Trouble raw a "invalid digit found in string"

/-- The name is not known. (A constraint about an unknown object is left out without a message, see C68.) -/
def Lost (raw : Raw) (a : Accessor) : Prop := ByName a.kind ∧ Unknown a.name (namesFor raw a.kind)

/-- Something is wrong with a constraint. -/
inductive Bad (raw : Raw) (e : CExpr) : String → Prop
  | unsupported : ¬ Fits e.left e.rel e.right → ¬ Fits e.right e.rel e.left → Bad raw e "Unsupported constraint."
  | second {l r : Accessor} {msg : String} : Sides e l r → Trouble raw r msg → Bad raw e msg
  | first {l r : Accessor} {msg : String} : Sides e l r → ¬ Lost raw r → Trouble raw l msg → Bad raw e msg

/-- Two different slots are to have the same choices. -/
def SlotsEqual (raw : Raw) (e : CExpr) : Prop :=
  e.rel = .eq ∧ e.left.kind = .slot ∧ e.left.sub = .choice ∧ e.right.kind = .slot ∧ e.right.sub = .choice ∧
  ∃ t u, t ≠ u ∧ OnlyName e.left.name (namesFor raw .slot) t ∧ OnlyName e.right.name (namesFor raw .slot) u

/-- Something is wrong with the input the script describes, and how this is reported. -/
inductive Reason (tr : List Event) (ending : Ending) : String → Prop
  /-- The script itself failed (the real message is that of the script language). -/
  | script : ending = .failed → Reason tr ending "script error"
  | notUsed {k : ObjKind} {id : Nat} : Given tr k id → ¬ Added tr k id → 
      Reason tr ending "Newly created object not used. Did you try to access an existing one instead of creating a new one?"
  | noChoices : (¬ ∃ id, Added tr .choice id) → Reason tr ending "No choices defined in input."
  | noChoosers : (¬ ∃ id, Added tr .chooser id) → Reason tr ending "No choosers defined in input."
  | wrongCount {raw : Raw} {p : Chooser} : Describes tr raw → p ∈ raw.choosers → p.prefs.length ≠ raw.choices.length →
      Reason tr ending (String.ofList ("Wrong number of preferences given for chooser \"".toList ++ p.name ++ "\".".toList))
  | constraint {raw : Raw} {e : CExpr} {msg : String} : Describes tr raw → e ∈ raw.exprs → Bad raw e msg → Reason tr ending msg
  | slotsEqual {raw : Raw} {e : CExpr} : Describes tr raw → e ∈ raw.exprs → SlotsEqual raw e →
      Reason tr ending "The given constraints are not satisfiable."

end Wassign.Spec
