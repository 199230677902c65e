import Verif.Spec.Time
/-
Numbers written as text.
-/
namespace Wassign.Spec

/-- `s` is a decimal number, possibly signed, with the value `v`. -/
inductive Numeral : Str → Int → Prop
  | plain {ds} : ds ≠ [] → (∀ c ∈ ds, IsDigit c) → Numeral ds (decimal ds)
  | plus {ds} : ds ≠ [] → (∀ c ∈ ds, IsDigit c) → Numeral ('+' :: ds) (decimal ds)
  | minus {ds} : ds ≠ [] → (∀ c ∈ ds, IsDigit c) → Numeral ('-' :: ds) (-(decimal ds : Int))

end Wassign.Spec
