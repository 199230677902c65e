import Verif.Basic
/-
What a time string means.
-/
namespace Wassign.Spec

/-- The units of time. -/
inductive TimeUnit where
  | second | minute | hour | day | week
deriving DecidableEq, Repr

def TimeUnit.letter : TimeUnit → Char
  | .second => 's'
  | .minute => 'm'
  | .hour => 'h'
  | .day => 'd'
  | .week => 'w'

def TimeUnit.seconds : TimeUnit → Nat
  | .second => 1
  | .minute => 60
  | .hour => 3600
  | .day => 86400
  | .week => 604800

/-- A decimal digit. -/
def IsDigit (c : Char) : Prop := '0' ≤ c ∧ c ≤ '9'

/-- The number written by a string of digits. -/
def decimal (s : Str) : Nat := s.foldl (fun n c => 10 * n + (c.toNat - '0'.toNat)) 0

/-- A number and its unit. -/
structure TimePart where
  digits : Str
  unit : TimeUnit
deriving DecidableEq, Repr

def TimePart.IsTimePart (p : TimePart) : Prop := ∀ c ∈ p.digits, IsDigit c

/-- The parts written one after the other. -/
def timeText (ps : List TimePart) : Str := ps.flatMap (fun p => p.digits ++ [p.unit.letter])

/-- The seconds they stand for. -/
def timeSeconds (ps : List TimePart) : Nat := (ps.map (fun p => decimal p.digits * p.unit.seconds)).sum

end Wassign.Spec
