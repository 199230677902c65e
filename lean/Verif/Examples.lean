import Verif.Model.Score
import Verif.Spec.Solution
import Verif.Spec.WF
/-
Concrete, non-trivial instances used to show that the hypotheses of the property theorems can be met.
-/
namespace Wassign.Ex

/-- Two slots, three choosers, four choices (the last one optional), with scheduling and assignment
constraints of several kinds. -/
def inp : InputData where
  choices := [⟨['A'], 1, 3, none, false⟩, ⟨['B'], 1, 2, none, false⟩,
              ⟨['C'], 1, 2, none, false⟩, ⟨['D'], 0, 3, none, true⟩]
  choosers := [⟨['p'], [0, 2, 1, 3]⟩, ⟨['q'], [1, 0, 2, 3]⟩, ⟨['r'], [0, 1, 0, 3]⟩]
  slots := [['s'], ['t']]
  schedCons := [⟨.choiceIsInSlot, 0, .slot 0, .none⟩,
                ⟨.choicesAreNotInSameSlot, 0, .choice 1, .none⟩,
                ⟨.slotHasLimitedSize, 1, .limit 2, .limitOp .leq⟩]
  asgCons := [⟨.chooserIsInChoice, 0, .choice 2, .none⟩,
              ⟨.chooserIsNotInChoice, 1, .choice 2, .none⟩]
  depGroups := [[0], [1], [2], [3]]
  prefLevels := [0, 1, 2, 3]
  maxPref := 3
  choiceConMap := [(0, [⟨.choiceIsInSlot, 0, .slot 0, .none⟩,
      ⟨.choicesAreNotInSameSlot, 0, .choice 1, .none⟩,
      ⟨.slotHasLimitedSize, 1, .limit 2, .limitOp .leq⟩]),
    (1, [⟨.choicesAreNotInSameSlot, 0, .choice 1, .none⟩,
      ⟨.slotHasLimitedSize, 1, .limit 2, .limitOp .leq⟩]),
    (2, [⟨.slotHasLimitedSize, 1, .limit 2, .limitOp .leq⟩]),
    (3, [⟨.slotHasLimitedSize, 1, .limit 2, .limitOp .leq⟩])]
  chooserConMap := []

def sch : Scheduling := [some 0, some 1, some 1, none]
def asg : Assignment := [[0, 2], [0, 1], [0, 2]]

/-- A scorer whose minor part counts the non-zero preferences (as a u32 converted to f32). -/
def scorer : Scoring := ⟨false, fun cnt => F32.ofU32 (cnt.drop 1).sum⟩

open Spec

theorem inp_wf : WF inp := by decide

theorem inp_sizes : Sizes inp := by constructor <;> decide

theorem shape : Shape inp sch asg := ⟨rfl, rfl, by decide⟩

end Wassign.Ex
