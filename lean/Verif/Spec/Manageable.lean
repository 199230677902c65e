import Verif.Spec.WF
import Verif.Model.InputBuilder
/-
The inputs for which the program is expected never to panic: those whose numbers fit the integer types of the program,
and whose participant limits are not contradictory.
-/
namespace Wassign.Spec

/-- The numbers in the constraint expressions of `raw` are at most `b`. -/
def NumbersFit (b : Nat) (raw : Raw) : Prop :=
  ∀ e ∈ raw.exprs, ∀ a, (a = e.left ∨ a = e.right) → a.kind = .integer → ∀ n, parseUsize a.name = some n → n ≤ b

/-- An input as described by a script: not more than 2^30 choices, counting parts (a choice with 0 parts counts as one), and
no number in a constraint beyond 2^31 - 1. -/
structure ManageableRaw (raw : Raw) : Prop where
  parts : (raw.choices.map (fun p => max 1 p.parts)).sum ≤ 1073741824
  numbers : NumbersFit 2147483647 raw

/-- The same input after reading: the participant limits are not contradictory (after choices with the same choosers
have been given common limits, see C25), and sizes and sums fit the integer types. -/
structure Manageable (d : InputData) : Prop where
  bounds : ∀ c ∈ d.choices, c.min ≤ c.max ∧ c.max ≤ 2147483647
  slots : d.slots.length ≤ 1073741824
  choosers : d.choosers.length ≤ 2147483647
  total : (d.choices.map (·.max)).sum ≤ 4294967295
  nodes : d.choosers.length * d.slots.length + d.choices.length + d.slots.length ≤ 4294967295
  preferences : d.maxPref < 4294967295

end Wassign.Spec
