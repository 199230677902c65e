import Verif.Model.Score
/-
The floating point arithmetic of scoring.rs:14-24 and 255-260: IEEE 754 binary32 with rounding to nearest, ties to even (the
arithmetic Rust prescribes for `f32`), computed exactly on natural numbers. `powf` is not modelled: the standard library does
not specify its precision, so it is a parameter.
-/
namespace Wassign
namespace F32

/-- The magnitude of a finite f32 in units of 2^-149 (the smallest positive f32): with exponent field `E` and mantissa
field `M` it is `M` for `E = 0` and `(2^23 + M) * 2^(E-1)` otherwise. -/
def mag (b : F32) : Nat :=
  let x := b.toNat % 2^31
  let e := x / 2^23
  let m := x % 2^23
  if e = 0 then m else (2^23 + m) * 2^(e - 1)

/-- The sign bit. -/
def neg (b : F32) : Bool := b.msb

/-- `n / d` rounded to the nearest natural number, ties to even. -/
def nearest (n d : Nat) : Nat :=
  if d < 2 * (n % d) ∨ (2 * (n % d) = d ∧ (n / d) % 2 = 1) then n / d + 1 else n / d

/-- The bit pattern of the f32 nearest to the non-negative number `n / d` units of 2^-149. The exponent field is one more
than `e` and the mantissa with its leading bit is rounded to `m`, which may carry into the exponent; numbers beyond the
largest finite f32 become infinity. -/
def roundBits (n d : Nat) : Nat :=
  let e := Nat.log2 (n / d) - 23
  min (e * 2^23 + nearest n (d * 2^e)) 0x7F800000

/-- A sign and the bit pattern of a magnitude. -/
def signed (s : Bool) (bits : Nat) : F32 := BitVec.ofNat 32 (if s then bits + 2^31 else bits)

/-- `f32::is_infinite`. -/
def isInf (b : F32) : Bool := !b.isFinite && !b.isNaN

/-- `a * b` (which NaN is returned is left open by the language; only NaN-ness is used). -/
def mul (a b : F32) : F32 :=
  let s := xor a.neg b.neg
  if a.isNaN || b.isNaN then nan
  else if a.isInf || b.isInf then
    if a.isFinite && a.mag == 0 || b.isFinite && b.mag == 0 then nan else signed s 0x7F800000
  else signed s (roundBits (a.mag * b.mag) (2^149))

/-- `a / b`. -/
def div (a b : F32) : F32 :=
  let s := xor a.neg b.neg
  if a.isNaN || b.isNaN then nan
  else if a.isInf then (if b.isInf then nan else signed s 0x7F800000)
  else if b.isInf then signed s 0
  else if b.mag = 0 then (if a.mag = 0 then nan else signed s 0x7F800000)
  else signed s (roundBits (a.mag * 2^149) b.mag)

/-- `a + b`. -/
def add (a b : F32) : F32 :=
  if a.isNaN || b.isNaN then nan
  else if a.isInf then (if b.isInf && xor a.neg b.neg then nan else a)
  else if b.isInf then b
  else
    let x : Int := (if a.neg then -(a.mag : Int) else a.mag) + (if b.neg then -(b.mag : Int) else b.mag)
    if x = 0 then signed (a.neg && b.neg) 0
    else signed (decide (x < 0)) (roundBits x.natAbs 1)

end F32

namespace Scoring

/-- scoring.rs:15-19: the scaling. -/
def scaling (powf : F32 → F32 → F32) (exp : F32) (maxPref : Nat) : F32 :=
  if maxPref = 0 then F32.ofU32 1 else powf (F32.ofU32 maxPref) exp

/-- scoring.rs:256-259: one turn of the loop; `e` is an entry of the preference counts with its index. -/
def minorStep (powf : F32 → F32 → F32) (exp : F32) (scal : F32) (sum : F32) (e : Nat × Nat) : F32 :=
  F32.add sum (F32.div (F32.mul (F32.ofU32 e.1) (powf (F32.ofU32 e.2) exp)) scal)

/-- scoring.rs:255-260: the minor score, as a function of the preference counts (the index is a `usize` that is at most
the greatest preference, a `u32`, so that its conversion is `ofU32`). -/
def minorSum (powf : F32 → F32 → F32) (exp : F32) (maxPref : Nat) (cnt : List Nat) : F32 :=
  cnt.zipIdx.foldl (minorStep powf exp (scaling powf exp maxPref)) 0#32

end Scoring
end Wassign
