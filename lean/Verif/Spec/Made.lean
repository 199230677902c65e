import Mathlib.Data.List.Forall2
import Verif.Spec.Script
import Verif.Spec.Numeral
/-
The input a script describes, in terms of its calls: which objects it added, in which order, under which names and with
which numbers.
-/
namespace Wassign.Spec
open Reader

/-- The last element of `l`, or `d` if there is none. -/
def lastOr {α : Type} (d : α) (l : List α) : α := l.getLast?.getD d

/-- The name these calls gave to the object last, `start` if they did not rename it. -/
def nameAfter (k : ObjKind) (id : Nat) (start : Str) (tr : List Event) : Str :=
  lastOr start (tr.filterMap (fun e =>
    match e.op, e.reply with
    | .setName k' id' n, some _ => if k' = k ∧ id' = id then some n else none
    | _, _ => none))

/-- The numbers a tag list gives for the least and the greatest number of participants and the number of parts, and its
answers to "optional?". -/
def minGiven (tags : List Tagged) : List Int :=
  tags.filterMap (fun t => if t.tag = .min ∨ t.tag = .bounds then t.values[0]? else none)
def maxGiven (tags : List Tagged) : List Int :=
  tags.filterMap (fun t => if t.tag = .max then t.values[0]? else if t.tag = .bounds then t.values[1]? else none)
def partsGiven (tags : List Tagged) : List Int := tags.filterMap (fun t => if t.tag = .parts then t.values[0]? else none)
def optionalGiven (tags : List Tagged) : List Int := tags.filterMap (fun t => if t.tag = .optional then t.values[0]? else none)

/-- The choice a call `choice(n, tags)` describes: what is given last counts, 1 participant, 1 part and not optional being
the defaults; no number may be negative or beyond 32 bits. -/
structure DescribesChoice (tags : List Tagged) (p : Proto) : Prop where
  min : (p.min : Int) = lastOr 1 (minGiven tags)
  max : (p.max : Int) = lastOr 1 (maxGiven tags)
  parts : (p.parts : Int) = lastOr 1 (partsGiven tags)
  optional : p.optional = true ↔ lastOr 0 (optionalGiven tags) = 1
  range : ∀ v ∈ minGiven tags ++ maxGiven tags ++ partsGiven tags, 0 ≤ v ∧ v ≤ 4294967295

/-- What a preference given by a script means. -/
def PrefValue (x : Dyn) (n : Nat) : Prop :=
  n ≤ 4294967295 ∧ match x with
    | .int v => v = n
    | .int32 v => v = n
    | .str s => Numeral s n
    | .other => False

/-- The object `id` of kind `k` was first given by this call; `post` is what happened afterwards. -/
def FirstGiven (tr : List Event) (k : ObjKind) (id : Nat) (op : Op) (post : List Event) : Prop :=
  ∃ pre, tr = pre ++ ⟨op, some (.ref id)⟩ :: post ∧ ¬ Given pre k id

/-- The slot, the choice and the chooser with this id, as the calls describe them. -/
def IsSlot (tr : List Event) (id : Nat) (s : Str) : Prop :=
  ∃ n post, FirstGiven tr .slot id (.slot n) post ∧ s = nameAfter .slot id n post
def IsChoice (tr : List Event) (id : Nat) (p : Proto) : Prop :=
  ∃ n tags post, FirstGiven tr .choice id (.choice n tags) post ∧ p.name = nameAfter .choice id n post ∧ DescribesChoice tags p
def IsChooser (tr : List Event) (id : Nat) (p : Chooser) : Prop :=
  ∃ n prefs post, FirstGiven tr .chooser id (.chooser n prefs) post ∧ p.name = nameAfter .chooser id n post ∧
    List.Forall₂ PrefValue prefs p.prefs

/-- The successful additions of a kind, in order. -/
def additions (tr : List Event) (k : ObjKind) : List Nat :=
  tr.filterMap (fun e =>
    match e.op, e.reply with
    | .add k' id, some _ => if k' = k then some id else none
    | _, _ => none)

/-- Keep first occurrences. -/
def firsts (l : List Nat) : List Nat := l.foldl (fun acc x => if x ∈ acc then acc else acc ++ [x]) []

/-- The constraints the script added, in order. -/
def constraintsOf (tr : List Event) : List CExpr :=
  tr.filterMap (fun e =>
    match e.op, e.reply with
    | .addExpr x, some _ => some x
    | _, _ => none)

/-- `raw` is the input the script describes. -/
structure Describes (tr : List Event) (raw : Raw) : Prop where
  slots : List.Forall₂ (IsSlot tr) (firsts (additions tr .slot)) raw.slots
  choices : List.Forall₂ (IsChoice tr) (firsts (additions tr .choice)) raw.choices
  choosers : List.Forall₂ (IsChooser tr) (firsts (additions tr .chooser)) raw.choosers
  constraints : raw.exprs = constraintsOf tr

end Wassign.Spec
