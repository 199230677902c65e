/-
Specification vocabulary for merging two lists.
-/
namespace Wassign

/-- `out` is an interleaving of `l` and `r`: it can be read from left to right taking each element
from the front of one of the two lists until both are used up. -/
inductive Interleaving {α : Type} : List α → List α → List α → Prop
  | nil : Interleaving [] [] []
  | left {x l r out} : Interleaving l r out → Interleaving (x :: l) r (x :: out)
  | right {x l r out} : Interleaving l r out → Interleaving l (x :: r) (x :: out)

end Wassign
