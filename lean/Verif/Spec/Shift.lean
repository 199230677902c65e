import Verif.Model.InputBuilder
/-
The same wishes on another scale.
-/
namespace Wassign.Spec

/-- The same input, but every chooser has given every preference `k` more. -/
def raised (k : Nat) (raw : Raw) : Raw := { raw with
  choosers := raw.choosers.map (fun c => ⟨c.name, c.prefs.map (· + k)⟩) }

end Wassign.Spec
