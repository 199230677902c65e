import Verif.Model.Main
import Verif.Model.Expr
/-
score.rs:13-27 and util.rs:3-5: how a score is written; main.rs:114-119: the score in the log.
-/
namespace Wassign

/-- `k` decimal digits of a number, most significant first. -/
def fixedDigits : Nat → Nat → Str
  | 0, _ => []
  | k + 1, n => fixedDigits k (n / 10) ++ [digitChar (n % 10)]

/-- `n / d` rounded to a nearest natural number; `tie` decides where two are equally near (the standard library rounds such cases to
even; nothing here depends on that). -/
def nearestBy (tie : Nat → Bool) (n d : Nat) : Nat :=
  if d < 2 * (n % d) ∨ (2 * (n % d) = d ∧ tie (n / d) = true) then n / d + 1 else n / d

/-- util.rs:3-5 `str_float`, for an f64 that comes from an f32 (score.rs:16, 21, 22: the conversion is exact): `format!("{value:.precision$}")`
writes the number rounded to the given number of decimals. -/
def strFloat (tie : Nat → Bool) (prec : Nat) (b : F32) : Str :=
  if b.isNaN then "NaN".toList
  else
    let sign : Str := if b.neg then ['-'] else []
    if b.isInf then sign ++ "inf".toList
    else
      let m := nearestBy tie (b.mag * 10 ^ prec) (2 ^ 149)
      sign ++ natStr (m / 10 ^ prec) ++ (if prec = 0 then [] else '.' :: fixedDigits prec (m % 10 ^ prec))

/-- score.rs:13-27: `Display` of a score. -/
def Score.display (tie : Nat → Bool) (s : Score) : Str :=
  if s.major.isNaN then strFloat tie 5 s.minor
  else '(' :: (strFloat tie 0 s.major ++ ',' :: ' ' :: (strFloat tie 5 s.minor ++ [')']))

/-- main.rs:107-119: the score in the message "Solution score: …" that follows a solver session, if there is one. -/
def Main.scoreShown {σ : Type} (tie : Nat → Bool) (p : Main.Prepared) (g : Threaded.Session σ ASolver (σ × Nat)) : R (Option Str) := do
  let sol ← Threaded.wait g
  if sol.isInvalid then pure none
  else do
    let sc ← p.scoring.evaluate p.input sol
    pure (some (sc.display tie))

end Wassign
