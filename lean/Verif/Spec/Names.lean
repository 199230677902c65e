import Verif.Basic
/-
How names match a lookup key.
-/
namespace Wassign.Spec

/-- `w` is a space-delimited word of `v`. -/
def IsWord (w v : Str) : Prop :=
  ∃ a b, v = a ++ w ++ b ∧ ' ' ∉ w ∧ (a = [] ∨ ∃ a', a = a' ++ [' ']) ∧ (b = [] ∨ ∃ b', b = ' ' :: b')

/-- `w` is the first word of `v`. -/
def IsFirstWord (w v : Str) : Prop :=
  ∃ b, v = w ++ b ∧ ' ' ∉ w ∧ (b = [] ∨ ∃ b', b = ' ' :: b')

/-- `key` occurs in `v`. -/
def Occurs (key v : Str) : Prop := ∃ a b, v = a ++ key ++ b

/-- The four ways a name can match, best first. -/
def Matches : Fin 4 → Str → Str → Prop
  | 0, key, v => v = key
  | 1, key, v => IsFirstWord key v
  | 2, key, v => IsWord key v
  | 3, key, v => Occurs key v

end Wassign.Spec
