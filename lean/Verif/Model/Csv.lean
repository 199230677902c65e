import Verif.Model.Reader
/-
rhai_interface.rs:252-261, 700-720: reading CSV files. The reader of the crates `csv` 1.4 and `csv-core` 0.1 is modelled with the
options used (delimiter given, quote `"`, doubled quotes, no escape character, no comments, no trimming, line ends CR, LF and
CRLF, records of different lengths not allowed, no headers); its source is not part of /repo. Bytes are numbers below 256.
-/
namespace Wassign

/-- `char::utf8_utf8`. -/
def encodeChar (c : Char) : List Nat :=
  let n := c.toNat
  if n < 0x80 then [n]
  else if n < 0x800 then [0xC0 + n / 64, 0x80 + n % 64]
  else if n < 0x10000 then [0xE0 + n / 4096, 0x80 + n / 64 % 64, 0x80 + n % 64]
  else [0xF0 + n / 262144, 0x80 + n / 4096 % 64, 0x80 + n / 64 % 64, 0x80 + n % 64]

/-- The bytes of a string. -/
def utf8 (s : Str) : List Nat := s.flatMap encodeChar

/-- The character number `n`, if these are its bytes (not the case for surrogates and overlong forms). -/
def charOf (n : Nat) (bytes : List Nat) : Option Char :=
  if n.isValidChar ∧ encodeChar (Char.ofNat n) = bytes then some (Char.ofNat n) else none

/-- The first character of a byte sequence, with the bytes after it. -/
def nextChar : List Nat → Option (Char × List Nat)
  | [] => none
  | a :: rest =>
    if a < 0x80 then some (Char.ofNat a, rest)
    else if a < 0xE0 then
      match rest with
      | b :: rest => (charOf ((a - 0xC0) * 64 + (b - 0x80)) [a, b]).map (fun c => (c, rest))
      | _ => none
    else if a < 0xF0 then
      match rest with
      | b :: c :: rest => (charOf ((a - 0xE0) * 4096 + (b - 0x80) * 64 + (c - 0x80)) [a, b, c]).map (fun c => (c, rest))
      | _ => none
    else
      match rest with
      | b :: c :: d :: rest =>
        (charOf ((a - 0xF0) * 262144 + (b - 0x80) * 4096 + (c - 0x80) * 64 + (d - 0x80)) [a, b, c, d]).map (fun c => (c, rest))
      | _ => none

/-- At most `n` characters are decoded. -/
def decodeGo : Nat → List Nat → Option Str
  | _, [] => some []
  | 0, _ => none
  | n + 1, bytes =>
    match nextChar bytes with
    | none => none
    | some r => (decodeGo n r.2).map (r.1 :: ·)

/-- `str::from_utf8`. -/
def ofUtf8 (bytes : List Nat) : Option Str := decodeGo bytes.length bytes

namespace Csv

/-- The states of the reader between two bytes (csv-core `NfaState`; those left without reading a byte are not listed). -/
inductive State where
  | startRecord
  | startField
  | inField
  | inQuoted
  | afterQuote
  | crlf
deriving DecidableEq, Repr

/-- The reader: its state, the bytes of the current field, the fields of the current record and the records so far. -/
structure Reader where
  state : State
  field : List Nat
  fields : List (List Nat)
  records : List (List (List Nat))
deriving DecidableEq, Repr

/-- The field ends at a delimiter. -/
def Reader.endField (r : Reader) : Reader := ⟨.startField, [], r.fields ++ [r.field], r.records⟩

/-- The field and the record end at the line end `c`; a CR may be followed by LF. -/
def Reader.endRecord (r : Reader) (c : Nat) : Reader :=
  ⟨if c = 13 then .crlf else .startRecord, [], [], r.records ++ [r.fields ++ [r.field]]⟩

/-- A byte outside quotes, in a field. -/
def Reader.plain (d : Nat) (r : Reader) (c : Nat) : Reader :=
  if c = d then r.endField
  else if c = 10 ∨ c = 13 then r.endRecord c
  else ⟨.inField, r.field ++ [c], r.fields, r.records⟩

/-- The first byte of a field. -/
def Reader.first (d : Nat) (r : Reader) (c : Nat) : Reader :=
  if c = 34 then { r with state := .inQuoted } else r.plain d c

/-- The first byte of a line: empty lines are skipped. -/
def Reader.line (d : Nat) (r : Reader) (c : Nat) : Reader :=
  if c = 10 ∨ c = 13 then { r with state := .startRecord } else r.first d c

/-- csv-core `transition_nfa` for delimiter `d` and byte `c`. -/
def Reader.step (d : Nat) (r : Reader) (c : Nat) : Reader :=
  match r.state with
  | .startRecord => r.line d c
  | .startField => r.first d c
  | .inField => r.plain d c
  | .inQuoted => if c = 34 then { r with state := .afterQuote } else { r with field := r.field ++ [c] }
  | .afterQuote => if c = 34 then ⟨.inQuoted, r.field ++ [34], r.fields, r.records⟩ else r.plain d c
  | .crlf => if c = 10 then { r with state := .startRecord } else r.line d c

/-- csv-core `transition_final_nfa`: the end of the file. -/
def Reader.finish (r : Reader) : List (List (List Nat)) :=
  match r.state with
  | .startRecord | .crlf => r.records
  | _ => r.records ++ [r.fields ++ [r.field]]

/-- A byte order mark at the beginning is skipped (csv-core `strip_utf8_bom`). -/
def stripBom : List Nat → List Nat
  | 0xEF :: 0xBB :: 0xBF :: rest => rest
  | bytes => bytes

/-- The records of a file, as bytes. -/
def records (d : Nat) (bytes : List Nat) : List (List (List Nat)) :=
  ((stripBom bytes).foldl (Reader.step d) ⟨.startRecord, [], [], []⟩).finish

/-- The texts of a record. -/
def texts (record : List (List Nat)) : R (List Str) :=
  record.mapM (fun f =>
    match ofUtf8 f with
    | some s => .ok s
    | none => .error (.error "CSV parse error: invalid UTF-8"))

/-- rhai_interface.rs:704-720 `read_file_csv`; `file` are the bytes of the file, if it can be opened. -/
def readCsv (file : Option (List Nat)) (separator : Char) : R (List (List Str)) :=
  if 255 < separator.toNat then .error (.error "CSV separator must fit in one byte.")
  else
    match file with
    | none => .error (.error "No such file or directory")
    | some bytes =>
      let rs := records separator.toNat bytes
      let count := (rs.head?.map List.length).getD 0
      rs.mapM (fun r =>
        if r.length ≠ count then .error (.error "CSV error: found record with a different number of fields")
        else texts r)

/-- rhai_interface.rs:255-258: a separator given as a string is its first character. -/
def separatorOf (s : Str) : Char := s.head?.getD ','

/-- rhai_interface.rs:700-702 `read_file_string`. -/
def readFile (file : Option (List Nat)) : R Str :=
  match file with
  | none => .error (.error "No such file or directory")
  | some bytes =>
    match ofUtf8 bytes with
    | some s => .ok s
    | none => .error (.error "stream did not contain valid UTF-8")

end Csv
end Wassign
