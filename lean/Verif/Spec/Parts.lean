import Verif.Model.InputBuilder
import Verif.Spec.Written
/-
How registered choices correspond to internal choices: each registered choice becomes a block of
consecutive internal choices, one per part.
-/
namespace Wassign.Spec

/-- Number of internal choices of a registered choice (0 parts count as 1). -/
def width (p : Proto) : Nat := max 1 p.parts

/-- Index of the first internal choice of registered choice `k`. -/
def offset (ps : List Proto) (k : Nat) : Nat := ((ps.take k).map width).sum

/-- Internal choice `c` is part `j` (from 0) of registered choice `k`. -/
def IsPart (ps : List Proto) (k j c : Nat) : Prop :=
  ∃ p, ps[k]? = some p ∧ j < width p ∧ c = offset ps k + j

end Wassign.Spec

namespace Wassign.Spec

/-- The constraints of an input: what its expressions say (in terms of the resulting data `d`), and for
every two parts of a choice that they have the same choosers and the right distance. -/
inductive IsWritten (raw : Raw) (d : InputData) : Constraint → Prop
  | expr {e : CExpr} {L : List Constraint} {c : Constraint} : e ∈ raw.exprs → buildExpr d e = .ok L → c ∈ L →
      IsWritten raw d c
  | sameChoosers {k i j x y : Nat} : IsPart raw.choices k i x → IsPart raw.choices k j y → i < j →
      IsWritten raw d ⟨.choicesHaveSameChoosers, x, .choice y, .none⟩
  | distance {k i j x y : Nat} : IsPart raw.choices k i x → IsPart raw.choices k j y → i < j →
      IsWritten raw d ⟨.choicesHaveOffset, x, .choice y, .offset ((j - i : Nat) : Int)⟩

/-- Two internal choices are directly required to have the same choosers. -/
def Linked (raw : Raw) (d : InputData) (x y : Nat) : Prop :=
  ∃ c, IsWritten raw d c ∧ c.kind = .choicesHaveSameChoosers ∧ c.left = x ∧ c.right = .choice y

/-- Two internal choices are forced to have the same choosers. -/
def Together (raw : Raw) (d : InputData) : Nat → Nat → Prop := Connected (Linked raw d)

/-- Chooser `p` must attend choice `c`, or a choice forced to have the same choosers. -/
def MustAttend (raw : Raw) (d : InputData) (p c : Nat) : Prop :=
  ∃ y, Together raw d c y ∧ ∃ k, IsWritten raw d k ∧ demand? k = some (p, y)

end Wassign.Spec
