import Mathlib.Analysis.SpecialFunctions.Pow.Real
/-
Independent specification: the cost of a preference in exact arithmetic.
-/
namespace Wassign.Spec

/-- assignment_solver.rs:399-401 in exact arithmetic: `(preference + 1)` to the power of the preference exponent, with the
fraction cut off by the conversion to an integer. -/
noncomputable def exactCost (exponent : ℝ) (x : Nat) : Int := ⌊((x : ℝ) + 1) ^ exponent⌋

end Wassign.Spec
