import Verif.Model.Reader
/-
Vocabulary for what a script did, in terms of its calls and their answers.
-/
namespace Wassign.Spec
open Reader

/-- The call asks for an object of this kind and name. -/
def asksFor : Op → Option (ObjKind × Str)
  | .slot n => some (.slot, n)
  | .choice n _ => some (.choice, n)
  | .chooser n _ => some (.chooser, n)
  | _ => none

/-- The script was given this object. -/
def Given (tr : List Event) (k : ObjKind) (id : Nat) : Prop :=
  ∃ e ∈ tr, ∃ n, asksFor e.op = some (k, n) ∧ e.reply = some (.ref id)

/-- The script added this object. -/
def Added (tr : List Event) (k : ObjKind) (id : Nat) : Prop :=
  ∃ e ∈ tr, e.op = .add k id ∧ e.reply.isSome

/-- No object is renamed after it was added. -/
def NoLateRename (tr : List Event) : Prop :=
  ∀ pre e post k id n, tr = pre ++ e :: post → e.op = .setName k id n → e.reply.isSome → ¬ Added pre k id

/-- The objects a value of the script is a reference to. -/
def refersTo : Rhai.Term → List (ObjKind × Nat)
  | .obj k id => [(k, id)]
  | _ => []

/-- The objects a call mentions. -/
def mentions : Op → List (ObjKind × Nat)
  | .add k id => [(k, id)]
  | .setName k id _ => [(k, id)]
  | .getName k id => [(k, id)]
  | .attr k id _ => [(k, id)]
  | .relate _ l r => refersTo l ++ refersTo r
  | _ => []

/-- A tag as the interface makes them. -/
def IsTag (t : Tagged) : Prop := t.values.length = if t.tag = .bounds then 2 else 1

/-- The script only uses objects it was given, and tags made by the interface. (`known`: the objects given so far.
This is what the script language guarantees: references cannot be made up.) -/
def Honest : List (ObjKind × Nat) → Script → Prop
  | _, .done => True
  | _, .fail => True
  | known, .call op next =>
    (∀ m ∈ mentions op, m ∈ known) ∧ (∀ n tags, op = .choice n tags → ∀ t ∈ tags, IsTag t) ∧
    ∀ reply, Honest (match asksFor op, reply with
      | some (k, _), some (.ref id) => (k, id) :: known
      | _, _ => known) (next reply)

/-- The names of the registered objects of a kind, in the order of registration. -/
def regNames {α : Type} [Named α] (p : Pool α) : List Str :=
  p.ids.filterMap (fun i => (p.objs[i]?).map (fun o => Named.name o.data))

/-- The names, by kind. -/
def namesOf (st : RState) : ObjKind → List Str
  | .slot => regNames st.slots
  | .choice => regNames st.choices
  | .chooser => regNames st.choosers

end Wassign.Spec
