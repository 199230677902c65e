import Verif.Spec.Numeral
/-
Decimal fractions written as text.
-/
namespace Wassign.Spec

/-- `s` is a number written without superfluous zeros in front and with `prec` decimals; it stands for `m / 10^prec`. -/
def Decimal (prec : Nat) (s : Str) (m : Nat) : Prop :=
  ∃ ds fs, s = (if prec = 0 then ds else ds ++ '.' :: fs) ∧ ds ≠ [] ∧ (ds.head? = some '0' → ds = ['0']) ∧ (∀ c ∈ ds, IsDigit c) ∧
    (∀ c ∈ fs, IsDigit c) ∧ fs.length = prec ∧ decimal (ds ++ fs) = m

/-- `m / 10^prec` is as near to `x / d` as a number with `prec` decimals can be: at most half a unit of the last decimal away. -/
def Rounded (prec : Nat) (x d m : Nat) : Prop := 2 * (m * d) ≤ 2 * (x * 10 ^ prec) + d ∧ 2 * (x * 10 ^ prec) ≤ 2 * (m * d) + d

/-- How a score is written: in greedy mode only the minor part `m / 10^5`, otherwise `(w, m / 10^5)`. -/
inductive ScoreText (greedy : Bool) (w m : Nat) : Str → Prop
  | minorOnly {t} : greedy = true → Decimal 5 t m → ScoreText greedy w m t
  | both {tw t} : greedy = false → Decimal 0 tw w → Decimal 5 t m → ScoreText greedy w m (['('] ++ tw ++ [',', ' '] ++ t ++ [')'])

end Wassign.Spec
