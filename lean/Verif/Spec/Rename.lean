import Verif.Model.Types
/-
Inputs that say the same about everything but the names.
-/
namespace Wassign.Spec

/-- Everything a choice says but its name. -/
def Choice.facts (c : Choice) : Nat × Nat × Option Nat × Bool := (c.min, c.max, c.continuation, c.isOptional)

/-- The two inputs have equally many slots, choices and choosers, which have the same limits, continuations and preferences in the same order,
and the same constraints (which speak of numbers, not of names) - only the names may differ, in any way. -/
structure SameButNames (d d' : InputData) : Prop where
  slots : d.slots.length = d'.slots.length
  choices : d.choices.map Choice.facts = d'.choices.map Choice.facts
  choosers : d.choosers.map (·.prefs) = d'.choosers.map (·.prefs)
  schedCons : d.schedCons = d'.schedCons
  asgCons : d.asgCons = d'.asgCons
  depGroups : d.depGroups = d'.depGroups
  prefLevels : d.prefLevels = d'.prefLevels
  maxPref : d.maxPref = d'.maxPref
  choiceConMap : d.choiceConMap = d'.choiceConMap
  chooserConMap : d.chooserConMap = d'.chooserConMap

end Wassign.Spec
