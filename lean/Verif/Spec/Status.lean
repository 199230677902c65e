import Verif.Model.Status
/-
Vocabulary for statements about what the user sees.
-/
namespace Wassign.Spec
open Wassign Status

/-- These bytes are these lines, each followed by a line feed. -/
def AreLines (bytes : List UInt8) (lines : List (List UInt8)) : Prop :=
  bytes = lines.flatMap (fun l => l ++ [lf]) ∧ ∀ l ∈ lines, lf ∉ l

/-- A line feed is added if the last line has none. -/
def closed (bytes : List UInt8) : List UInt8 := if bytes = [] ∨ bytes.getLast? = some lf then bytes else bytes ++ [lf]

/-- Uses of the status output by a thread: a message, or a stretch of work under a progress bar. -/
inductive Use where
  | message (text : List UInt8)
  | work (info : Bool) (inner : List Use)

mutual
/-- The bars while these uses happen. -/
def Use.run : Use → Bars → Bars
  | .message _, s => s
  | .work info inner, s =>
    let c := createBar info s
    dropBar c.1 (Use.runAll inner c.2)
/-- One after the other. -/
def Use.runAll : List Use → Bars → Bars
  | [], s => s
  | u :: us, s => Use.runAll us (Use.run u s)
end

end Wassign.Spec
