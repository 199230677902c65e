import Verif.Spec.Made
import Verif.Spec.Answer
/-
What the constraints of a script say, in terms of its calls: an object of the script is the object of the input that was
added at that place, whatever the names are.
-/
namespace Wassign.Spec
open Reader Rhai

/-- The object is number `i` (from 0) of the added objects of its kind. -/
def Numbered (tr : List Reader.Event) (k : ObjKind) (id i : Nat) : Prop := (firsts (additions tr k))[i]? = some id

/-- The object itself in a constraint (`ps`: the choices of the input). -/
inductive ObjectIs (tr : List Reader.Event) (ps : List Proto) : ObjKind → Nat → Operand → Prop
  | slot {id i : Nat} : Numbered tr .slot id i → ObjectIs tr ps .slot id (.theSlot i)
  | choice {id k c : Nat} : Numbered tr .choice id k → IsPart ps k 0 c → ObjectIs tr ps .choice id (.theChoice c)
  | chooser {id i : Nat} : Numbered tr .chooser id i → ObjectIs tr ps .chooser id (.theChooser i)

/-- A property of an object in a constraint. Parts are counted from 0; without a part the first one is meant. -/
inductive PropertyIs (tr : List Reader.Event) (ps : List Proto) : ObjKind → Nat → Attr → Operand → Prop
  | choicesIn {id i : Nat} : Numbered tr .slot id i → PropertyIs tr ps .slot id .choices (.choicesIn i)
  | sizeOf {id i : Nat} : Numbered tr .slot id i → PropertyIs tr ps .slot id .size (.sizeOf i)
  | slotOf {id k c : Nat} : Numbered tr .choice id k → IsPart ps k 0 c → PropertyIs tr ps .choice id .slot (.slotOf c)
  | slotOfPart {id k j c : Nat} : Numbered tr .choice id k → IsPart ps k j c →
      PropertyIs tr ps .choice id (.slotPart j) (.slotOf c)
  | attendeesOf {id k c : Nat} : Numbered tr .choice id k → IsPart ps k 0 c →
      PropertyIs tr ps .choice id .choosers (.attendeesOf c)
  | attendeesOfPart {id k j c : Nat} : Numbered tr .choice id k → IsPart ps k j c →
      PropertyIs tr ps .choice id (.choosersPart j) (.attendeesOf c)
  | attendedBy {id i : Nat} : Numbered tr .chooser id i → PropertyIs tr ps .chooser id .choices (.attendedBy i)

/-- After the calls `pre` the object is not renamed any more. -/
def Keeps (tr pre : List Reader.Event) (k : ObjKind) (id : Nat) : Prop :=
  ∃ post, tr = pre ++ post ∧ ∀ e ∈ post, ∀ n, e.op = .setName k id n → e.reply = none

/-- What a value of the script stands for, after the calls `pre`. A property was asked for earlier. Objects keep their names
from the time they are used. -/
inductive Stands (tr : List Reader.Event) (ps : List Proto) (pre : List Reader.Event) : Term → Operand → Prop
  | obj {k : ObjKind} {id : Nat} {o : Operand} : ObjectIs tr ps k id o → Keeps tr pre k id → Stands tr ps pre (.obj k id) o
  | int {n : Nat} : n ≤ u32Max → Stands tr ps pre (.int n) (.number n)
  | acc {before after : List Reader.Event} {k : ObjKind} {id : Nat} {a : Attr} {x : Accessor} {o : Operand} :
      pre = before ++ ⟨.attr k id a, some (.accessor x)⟩ :: after → PropertyIs tr ps k id a o → Keeps tr before k id →
      Stands tr ps pre (.acc x) o

/-- How a relation is written. -/
def symbolOf : RelT → String
  | .eq => "=="
  | .neq => "!="
  | .gt => ">"
  | .lt => "<"
  | .geq => ">="
  | .leq => "<="
  | .contains => "contains"
  | .notContains => "contains_not"

/-- The script makes its constraints with the interface (there is no other way to make them), and its integers have 64 bits. -/
structure FromInterface (tr : List Reader.Event) : Prop where
  exprs : ∀ pre x reply post, tr = pre ++ ⟨.addExpr x, reply⟩ :: post → ∃ e ∈ pre, e.reply = some (.expr x)
  accessors : ∀ pre symbol l r reply post, tr = pre ++ ⟨.relate symbol l r, reply⟩ :: post →
    ∀ a, l = .acc a ∨ r = .acc a → ∃ e ∈ pre, e.reply = some (.accessor a)
  integers : ∀ symbol l r reply, ⟨.relate symbol l r, reply⟩ ∈ tr →
    ∀ v, l = .int v ∨ r = .int v → -9223372036854775808 ≤ v ∧ v ≤ 9223372036854775807

/-- No object is renamed after one of its properties was asked for or it was used in a constraint. -/
def NoRenameAfterUse (tr : List Reader.Event) : Prop :=
  (∀ pre k id a reply post, tr = pre ++ ⟨.attr k id a, reply⟩ :: post → Keeps tr pre k id) ∧
  (∀ pre symbol l r reply post, tr = pre ++ ⟨.relate symbol l r, reply⟩ :: post →
    ∀ k id, l = .obj k id ∨ r = .obj k id → Keeps tr pre k id)

/-- The constraint `e` is this relation between these things, as written by the script: `l symbol r`. -/
def Wrote (tr : List Reader.Event) (ps : List Proto) (e : CExpr) (ol : Operand) (or : Operand) : Prop :=
  ∃ pre l r post, tr = pre ++ ⟨.relate (symbolOf e.rel) l r, some (.expr e)⟩ :: post ∧
    Stands tr ps pre l ol ∧ Stands tr ps pre r or

end Wassign.Spec
