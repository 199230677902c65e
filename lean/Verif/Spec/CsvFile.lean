import Verif.Basic
import Mathlib.Data.List.Forall2
/-
How a table is written in a CSV file (RFC 4180).
-/
namespace Wassign.Spec

/-- A cell in quotes, with the quotes inside it doubled. -/
def quotedText (v : Str) : Str := ['"'] ++ v.flatMap (fun c => if c = '"' then ['"', '"'] else [c]) ++ ['"']

/-- The text `t` is a way to write the cell `v`: as it is, if it contains neither the separator nor a line end and does not begin
with a quote, or in quotes. -/
def CellText (sep : Char) (v t : Str) : Prop :=
  (t = v ∧ (∀ c ∈ v, c ≠ sep ∧ c ≠ '\n' ∧ c ≠ '\r') ∧ v.head? ≠ some '"') ∨ t = quotedText v

/-- A line: cells with separators between them; it is not an empty line. -/
def RowText (sep : Char) (row : List Str) (t : Str) : Prop :=
  row ≠ [] ∧ t ≠ [] ∧ ∃ ts, List.Forall₂ (CellText sep) row ts ∧ t = List.intercalate [sep] ts

def LineEnd (e : Str) : Prop := e = ['\n'] ∨ e = ['\r', '\n'] ∨ e = ['\r']

/-- A file: lines with ends, the last one possibly without, and possibly empty lines. -/
inductive FileText (sep : Char) : List (List Str) → Str → Prop where
  | nil : FileText sep [] []
  | last {row t} : RowText sep row t → FileText sep [row] t
  | line {row t e rows rest} : RowText sep row t → LineEnd e → FileText sep rows rest → FileText sep (row :: rows) (t ++ e ++ rest)
  | blank {e rows rest} : LineEnd e → FileText sep rows rest → FileText sep rows (e ++ rest)

end Wassign.Spec
