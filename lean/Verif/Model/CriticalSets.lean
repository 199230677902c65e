import Verif.Model.SchedulingSolver
/-
critical_set.rs and critical_set_analysis.rs. Progress bars and status output are not modelled.
-/
namespace Wassign

namespace CriticalSet

/-- critical_set.rs:21-34: the two-pointer loop of `is_superset_of`, on the remaining suffixes. -/
def supGo : List Nat → List Nat → Bool
  | _, [] => true
  | [], _ :: _ => false
  | a :: as, b :: bs =>
    if a < b then supGo as (b :: bs)
    else if a = b then supGo as bs
    else false

/-- critical_set.rs:16-35 `is_superset_of`. -/
def isSupersetOf (self other : CriticalSet) : Bool :=
  if self.data.length < other.data.length then false else supGo self.data other.data

/-- critical_set.rs:12-14 `is_covered_by`. -/
def isCoveredBy (self other : CriticalSet) : Bool :=
  decide (self.preference ≤ other.preference) && isSupersetOf self other

/-- critical_set.rs:36-38 `size`. -/
def size (s : CriticalSet) : Nat := s.data.length

end CriticalSet

namespace Critical

/-- critical_set_analysis.rs:118-123: one choice; the accumulator is (set_data, min_count). -/
def addChoice (i : InputData) (prefs : List Nat) (pref : Nat) (acc : List Nat × Nat) (choice : Nat) :
    R (List Nat × Nat) := do
  let p ← idx prefs choice "preferences[choice]"
  if p ≤ pref then do
    let ch ← idx i.choices choice "choices[choice]"
    let mc ← addU32 acc.2 ch.min "min_count += min"
    pure (acc.1 ++ [choice], mc)
  else pure acc

/-- critical_set_analysis.rs:125-130: `chooser_slots`. -/
def chooserSlots (i : InputData) : R Nat :=
  toU32 (i.np * (i.ns - 1)) "chooser-slot product must fit in u32"

/-- critical_set_analysis.rs:108-144: one chooser at one preference level. -/
def addChooser (i : InputData) (pref : Nat) (sets : List CriticalSet) (chooser : Nat) :
    R (List CriticalSet) := do
  let ch ← idx i.choosers chooser "choosers[chooser]"
  let acc ← (List.range i.nc).foldlM (addChoice i ch.prefs pref) ([], 0)
  let slots ← chooserSlots i
  if slots < acc.2 then pure sets
  else
    let candidate : CriticalSet := ⟨pref, acc.1⟩
    if sets.any (fun other => candidate.isCoveredBy other) then pure sets
    else pure (sets ++ [candidate])

/-- critical_set_analysis.rs:105-147: all levels in descending order, all choosers. -/
def collect (i : InputData) : R (List CriticalSet) :=
  i.prefLevels.reverse.foldlM (fun sets pref =>
    (List.range i.np).foldlM (addChooser i pref) sets) []

/-- critical_set_analysis.rs:168-175: the simplification loop, with fuel for the number of rounds
(`index` grows in every round and `remaining` never grows, so its length is enough). -/
def simplifyGo : Nat → Nat → List CriticalSet → List CriticalSet
  | 0, _, remaining => remaining
  | fuel + 1, index, remaining =>
    match remaining[index]? with
    | none => remaining
    | some current =>
      simplifyGo fuel (index + 1)
        (remaining.filter (fun other => current == other || !other.isCoveredBy current))

/-- critical_set_analysis.rs:97-182 `analyze`. -/
def analyze (i : InputData) (simplify : Bool) : R (List CriticalSet) := do
  let sets ← collect i
  pure (if simplify then simplifyGo sets.length 0 sets else sets)

/-- critical_set_analysis.rs:82-89 `insert_minimal_set`. -/
def insertMinimal (minimal : List CriticalSet) (candidate : CriticalSet) : List CriticalSet :=
  if minimal.any (fun set => candidate.isSupersetOf set) then minimal
  else minimal.filter (fun set => !set.isSupersetOf candidate) ++ [candidate]

/-- critical_set_analysis.rs:68-79: one level of the cache; the accumulator is
(minimal_sets, cached_sets). -/
def cacheLevel (sets : List CriticalSet) (acc : List CriticalSet × List (Nat × List CriticalSet))
    (preference : Nat) : List CriticalSet × List (Nat × List CriticalSet) :=
  let new := sortByKey CriticalSet.size (sets.filter (fun s => s.preference == preference))
  let minimal := sortByKey CriticalSet.size (new.foldl insertMinimal acc.1)
  (minimal, (preference, minimal) :: acc.2)

/-- critical_set_analysis.rs:57-80 `build_cache`. -/
def buildCache (i : InputData) (sets : List CriticalSet) : List (Nat × List CriticalSet) :=
  (i.prefLevels.reverse.foldl (cacheLevel sets) ([], [])).2

/-- critical_set_analysis.rs:36-45: one level of the preference bound. -/
def boundStep (i : InputData) (sets : List CriticalSet) (b level : Nat) : Nat :=
  match ((sets.filter (fun s => decide (level ≤ s.preference))).map CriticalSet.size).min? with
  | some m => if i.ns ≤ m then min b level else b
  | none => b

/-- critical_set_analysis.rs:35-46: the preference bound. -/
def bound (i : InputData) (sets : List CriticalSet) : Nat :=
  i.prefLevels.foldl (boundStep i sets) i.maxPref

end Critical

/-- critical_set_analysis.rs:8-13 `CriticalSetAnalysis` (without the `quiet` flag). -/
structure Analysis where
  sets : List CriticalSet
  cached : List (Nat × List CriticalSet)
  preferenceBound : Nat
deriving DecidableEq, Repr

namespace Analysis

/-- critical_set_analysis.rs:25-51 `CriticalSetAnalysis::new`. -/
def new (i : InputData) (analyze simplify : Bool) : R Analysis :=
  if analyze then do
    let sets ← Critical.analyze i simplify
    pure ⟨sets, Critical.buildCache i sets, Critical.bound i sets⟩
  else pure ⟨[], [], 0⟩

/-- critical_set_analysis.rs:53-55 `for_preference`. -/
def forPreference (a : Analysis) (preference : Nat) : List CriticalSet :=
  (a.cached.lookup preference).getD []

end Analysis
end Wassign
