import Verif.Model.Score
/-
Comparing scores.
-/
namespace Wassign

/-- The finite scores of one mode: greedy scores have a NaN major part, the others do not. -/
def Score.InMode (g : Bool) (s : Score) : Prop := s.isFinite = true → s.major.isNaN = g

/-- `a` is not worse than `b`. -/
def Score.le (a b : Score) : Prop := Score.cmp a b ≠ .gt

end Wassign
