import Verif.Spec.Parts
import Verif.Model.Float
/-
Independent specification: every valid solution gets a finite score; and what a reasonable `powf` does.
-/
namespace Wassign.Spec

/-- Every valid solution gets a finite score (only solutions with a finite score are ever reported). -/
def Scorable (sc : Scoring) (i : InputData) : Prop :=
  ∀ s a, SchedShape i s → Shape i s a → Valid i s a → ∃ score, sc.evaluate i (.complete s a) = .ok score ∧ score.isFinite = true

/-- What is assumed of `f32::powf` for the exponent `e` and the greatest preference `m`: the powers of `0..m` are finite, not
negative and no greater than that of `m`, which is positive and at most 2^95 (the unit of `mag` is 2^-149). This is met by every
exponent that is not negative as long as the power of `m` fits. -/
structure ModeratePowers (powf : F32 → F32 → F32) (e : F32) (m : Nat) : Prop where
  plain : ∀ n ≤ m, (powf (F32.ofU32 n) e).isFinite = true ∧ (powf (F32.ofU32 n) e).neg = false
  least : ∀ n ≤ m, (powf (F32.ofU32 n) e).mag ≤ (Scoring.scaling powf e m).mag
  positive : 0 < (Scoring.scaling powf e m).mag
  moderate : (Scoring.scaling powf e m).mag ≤ 2^(95 + 149)

end Wassign.Spec

namespace Wassign.Spec

/-- The computed powers of `0..m` are zero or at least one, as they are for every exponent that is not negative. -/
def WholePowers (powf : F32 → F32 → F32) (e : F32) (m : Nat) : Prop :=
  ∀ n ≤ m, (powf (F32.ofU32 n) e).mag = 0 ∨ 2^149 ≤ (powf (F32.ofU32 n) e).mag

end Wassign.Spec
