import Verif.Basic
/-
union_find.rs. Elements are the numbers below the given maximum, so `elements` is the identity.
-/
namespace Wassign

/-- union_find.rs:1-6 `UnionFind<usize>`. -/
structure UF where
  parents : List (Option Nat)
  heights : List Nat
deriving DecidableEq, Repr

namespace UF

/-- union_find.rs:13-31 `new` (panics if the maximum does not fit in i32). -/
def new (n : Nat) : R UF := do
  let _ ← toI32 n "max value must fit in i32"
  pure ⟨List.replicate n none, List.replicate n 0⟩

/-- union_find.rs:50-53: the loop of `find`, with fuel. -/
def findGo (parents : List (Option Nat)) : Nat → Nat → R Nat
  | 0, _ => panic' "out of fuel"
  | fuel + 1, index => do
    match ← idx parents index "parents[index]" with
    | none => pure index
    | some p => findGo parents fuel p

/-- union_find.rs:48-54 `find`. -/
def find (u : UF) (e : Nat) : R Nat :=
  if e < u.parents.length then findGo u.parents (u.parents.length + 1) e
  else panic' "element not found"

/-- union_find.rs:39-42: hang root `lo` below root `hi`. -/
def link (u : UF) (lo hi : Nat) : R UF := do
  let hl ← idx u.heights lo "heights[left]"
  let hh ← idx u.heights hi "heights[right]"
  let parents ← setIdx u.parents lo (some hi) "parents[left]"
  let heights ← setIdx u.heights hi (max hh (hl + 1)) "heights[right]"
  pure ⟨parents, heights⟩

/-- union_find.rs:33-46 `join` (the returned root is not used by any caller). -/
def join (u : UF) (left right : Nat) : R UF := do
  let l ← u.find left
  let r ← u.find right
  if l ≠ r then do
    let hl ← idx u.heights l "heights[left]"
    let hr ← idx u.heights r "heights[right]"
    if hl > hr then u.link r l else u.link l r
  else pure u

end UF

/-- `map.entry(k).or_default().push(v)` on a `BTreeMap<usize, Vec<T>>`, kept as a list ascending by
key. -/
def mapPush {α : Type} : List (Nat × List α) → Nat → α → List (Nat × List α)
  | [], k, v => [(k, [v])]
  | (k', l) :: t, k, v =>
    if k < k' then (k, [v]) :: (k', l) :: t
    else if k = k' then (k', l ++ [v]) :: t
    else (k', l) :: mapPush t k v

/-- union_find.rs:62-66: one element of `groups`. -/
def UF.groupStep (u : UF) (m : List (Nat × List Nat)) (e : Nat) : R (List (Nat × List Nat)) := do
  let r ← u.find e
  pure (mapPush m r e)

/-- union_find.rs:60-69 `groups`. -/
def UF.groups (u : UF) : R (List (List Nat)) := do
  let m ← (List.range u.parents.length).foldlM u.groupStep []
  pure (m.map (·.2))

end Wassign
