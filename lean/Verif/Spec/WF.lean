import Verif.Model.Types
/-
Well-formedness of input data: what the reader guarantees (C48) and the solver relies on.
-/
namespace Wassign.Spec

/-- A scheduling constraint in the form the solver understands, with indices in range. -/
def SchedConWF (i : InputData) (c : Constraint) : Prop :=
  match c.kind, c.right, c.extra with
  | .choiceIsInSlot, .slot t, _ => c.left < i.nc ∧ t < i.ns
  | .choiceIsNotInSlot, .slot t, _ => c.left < i.nc ∧ t < i.ns
  | .choicesAreInSameSlot, .choice y, _ => c.left < i.nc ∧ y < i.nc
  | .choicesAreNotInSameSlot, .choice y, _ => c.left < i.nc ∧ y < i.nc
  | .choicesHaveOffset, .choice y, .offset _ => c.left < i.nc ∧ y < i.nc
  | .slotHasLimitedSize, .limit _, .limitOp _ => c.left < i.ns
  | _, _, _ => False

/-- An assignment constraint in the form the solver understands, with indices in range. -/
def AsgConWF (i : InputData) (c : Constraint) : Prop :=
  match c.kind, c.right with
  | .choicesHaveSameChoosers, .choice y => c.left < i.nc ∧ y < i.nc
  | .chooserIsInChoice, .choice y => c.left < i.np ∧ y < i.nc
  | .chooserIsNotInChoice, .choice y => c.left < i.np ∧ y < i.nc
  | .choosersHaveSameChoices, .chooser q => c.left < i.np ∧ q < i.np
  | _, _ => False

/-- Well-formed input data. -/
structure WF (i : InputData) : Prop where
  sched : ∀ c ∈ i.schedCons, SchedConWF i c
  asg : ∀ c ∈ i.asgCons, AsgConWF i c
  prefLen : ∀ p ∈ i.choosers, p.prefs.length = i.nc
  prefMax : ∀ p ∈ i.choosers, ∀ x ∈ p.prefs, x ≤ i.maxPref

/-- The sizes the fixed-width integer types can carry. -/
structure Sizes (i : InputData) : Prop where
  choosers : i.np ≤ i32Max
  slots : i.ns ≤ i32Max
  choices : i.nc ≤ i32Max
  sumMin : (i.choices.map (·.min)).sum ≤ u32Max
  sumMax : (i.choices.map (·.max)).sum ≤ u32Max
  attendances : i.np * i.ns ≤ u32Max
  maxPref : i.maxPref < u32Max

instance (i : InputData) (c : Constraint) : Decidable (SchedConWF i c) := by
  unfold SchedConWF; split <;> infer_instance

instance (i : InputData) (c : Constraint) : Decidable (AsgConWF i c) := by
  unfold AsgConWF; split <;> infer_instance

instance (i : InputData) : Decidable (WF i) :=
  decidable_of_iff ((∀ c ∈ i.schedCons, SchedConWF i c) ∧ (∀ c ∈ i.asgCons, AsgConWF i c) ∧
    (∀ p ∈ i.choosers, p.prefs.length = i.nc) ∧ (∀ p ∈ i.choosers, ∀ x ∈ p.prefs, x ≤ i.maxPref))
    ⟨fun h => ⟨h.1, h.2.1, h.2.2.1, h.2.2.2⟩, fun h => ⟨h.1, h.2, h.3, h.4⟩⟩

/-- Constraint `k` concerns choice `c`: it mentions the choice, or it limits the size of a slot. -/
def Concerns (k : Constraint) (c : Nat) : Prop :=
  match k.kind with
  | .slotHasLimitedSize => True
  | .choiceIsInSlot | .choiceIsNotInSlot => k.left = c
  | .choicesAreInSameSlot | .choicesAreNotInSameSlot | .choicesHaveOffset =>
      k.left = c ∨ k.right = .choice c
  | _ => False

instance (k : Constraint) (c : Nat) : Decidable (Concerns k c) := by
  unfold Concerns; split <;> infer_instance

/-- What the scheduling search relies on besides `WF` and `Sizes`: size limits and offsets fit the
signed arithmetic of the search, and the per-choice constraint lookup is exact (C46). -/
structure SearchReady (i : InputData) : Prop where
  limits : ∀ k ∈ i.schedCons, ∀ n, k.right = .limit n → n ≤ i32Max
  offsets : ∀ k ∈ i.schedCons, ∀ o, k.extra = .offset o → -1073741824 < o ∧ o < 1073741824
  slots : i.ns ≤ 1073741824
  conMap : ∀ c < i.nc, ∀ k, k ∈ i.schedConsFor c ↔ k ∈ i.schedCons ∧ Concerns k c

end Wassign.Spec
