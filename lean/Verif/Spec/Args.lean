import Verif.Spec.Numeral
import Verif.Model.Reader
/-
The arguments of `choice(…)` as the manual describes them (Manual.md:39-47).
-/
namespace Wassign.Spec

/-- One argument after the name. -/
inductive ChoiceArg where
  | min (x : Nat)
  | max (x : Nat)
  | bounds (x y : Nat)
  | parts (x : Nat)
  | optional
  | optionalIf (b : Bool)
deriving DecidableEq, Repr

namespace ChoiceArg

/-- The least number of participants it asks for, if it is about that. -/
def least : ChoiceArg → Option Nat
  | .min x => some x
  | .bounds x _ => some x
  | _ => none

/-- The greatest number of participants. -/
def most : ChoiceArg → Option Nat
  | .max x => some x
  | .bounds _ y => some y
  | _ => none

/-- The number of parts. -/
def partCount : ChoiceArg → Option Nat
  | .parts x => some x
  | _ => none

/-- Whether the choice may be left out. -/
def leftOut : ChoiceArg → Option Bool
  | .optional => some true
  | .optionalIf b => some b
  | _ => none

end ChoiceArg

/-- What a list of arguments says about one quality of the choice: the last argument about it decides. -/
def said {α : Type} (about : ChoiceArg → Option α) (default : α) (args : List ChoiceArg) : α :=
  ((args.filterMap about).getLast?).getD default

/-- The choice that the manual promises for a name and arguments: everything not mentioned has its default. -/
def describedChoice (name : Str) (args : List ChoiceArg) : Proto where
  name := name
  min := said ChoiceArg.least 1 args
  max := said ChoiceArg.most 1 args
  parts := said ChoiceArg.partCount 1 args
  optional := said ChoiceArg.leftOut false args

/-- `t` is what the script gets when it writes the argument down: the number as an integer or as a string. -/
inductive WrittenArg : ChoiceArg → Tagged → Prop
  | minInt {n : Nat} : n ≤ 2147483647 → WrittenArg (.min n) (tagInt .min n)
  | maxInt {n : Nat} : n ≤ 2147483647 → WrittenArg (.max n) (tagInt .max n)
  | partsInt {n : Nat} : n ≤ 2147483647 → WrittenArg (.parts n) (tagInt .parts n)
  | boundsInt {n m : Nat} : n ≤ 2147483647 → m ≤ 2147483647 → WrittenArg (.bounds n m) (boundsInt n m)
  | minStr {n : Nat} {s : Str} {t} : Numeral s n → tagStr .min s = .ok t → WrittenArg (.min n) t
  | maxStr {n : Nat} {s : Str} {t} : Numeral s n → tagStr .max s = .ok t → WrittenArg (.max n) t
  | partsStr {n : Nat} {s : Str} {t} : Numeral s n → tagStr .parts s = .ok t → WrittenArg (.parts n) t
  | boundsStr {n m : Nat} {s s' : Str} {t} : Numeral s n → Numeral s' m → boundsStr s s' = .ok t → WrittenArg (.bounds n m) t
  | optional : WrittenArg .optional optionalTag
  | optionalIf {b} : WrittenArg (.optionalIf b) (optionalIf b)

end Wassign.Spec
