import Verif.Basic
/-
input/fuzzy_match.rs: name lookup.
-/
namespace Wassign

/-- fuzzy_match.rs:32: `value.split(' ')`. The first argument is the word read so far, reversed. -/
def splitGo : Str → Str → List Str
  | cur, [] => [cur.reverse]
  | cur, c :: rest => if c = ' ' then cur.reverse :: splitGo [] rest else splitGo (c :: cur) rest

/-- fuzzy_match.rs:32 `value.split(' ')`. -/
def splitWords (v : Str) : List Str := splitGo [] v

/-- `str::starts_with`. -/
def isPrefix : Str → Str → Bool
  | [], _ => true
  | _ :: _, [] => false
  | a :: as, b :: bs => a == b && isPrefix as bs

/-- fuzzy_match.rs:48: `value.contains(key)`. -/
def containsStr (key : Str) : Str → Bool
  | [] => key.isEmpty
  | c :: v => isPrefix key (c :: v) || containsStr key v

/-- `iter().enumerate().filter_map(|(i, v)| p(v).then_some(i))`. -/
def indicesWhere (p : Str → Bool) (values : List Str) : List Nat :=
  (values.zipIdx.filter (fun e => p e.1)).map (·.2)

/-- fuzzy_match.rs:19-25 `find_exact`. -/
def findExact (key : Str) (values : List Str) : List Nat := indicesWhere (fun v => v == key) values

/-- fuzzy_match.rs:27-42 `find_by_token`. -/
def findByToken (key : Str) (values : List Str) (onlyFirst : Bool) : List Nat :=
  indicesWhere (fun v =>
    let tokens := if onlyFirst then (splitWords v).take 1 else splitWords v
    tokens.any (fun t => t == key)) values

/-- fuzzy_match.rs:44-50 `find_by_substring`. -/
def findBySubstring (key : Str) (values : List Str) : List Nat := indicesWhere (containsStr key) values

/-- fuzzy_match.rs:4-17 `FuzzyMatch::find`: the first non-empty list of matches. -/
def fuzzyFind (key : Str) (values : List Str) : List Nat :=
  match [findExact key values, findByToken key values true, findByToken key values false,
      findBySubstring key values].find? (fun m => !m.isEmpty) with
  | some m => m
  | none => []

end Wassign
