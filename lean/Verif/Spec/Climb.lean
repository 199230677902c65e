import Verif.Spec.Progress
/-
What a local optimum of hill climbing is.
-/
namespace Wassign.Spec
open Wassign

variable {σ τ : Type}

/-- The assignment solver was asked about `n` (in some state that satisfies `Inv`), and what it answered has the score `sc`. -/
def Examined (pr : HProblem) (env : HEnv σ τ) (Inv : τ → Prop) (n : Scheduling) (sc : Score) : Prop :=
  ∃ t r t', Inv t ∧ env.asolve t n = .ok (r, t') ∧
    pr.scoring.evaluate pr.input (r.elim (.scheduling n) (.complete n)) = .ok sc

/-- The solver has looked at a set of neighbours picked for `s`, and none of them has a better score than `score`. -/
def LocallyBest (pr : HProblem) (env : HEnv σ τ) (Inv : τ → Prop) (s : Scheduling) (score : Score) : Prop :=
  ∃ rs ns rs', Hill.pickNeighbors env.rng env.draws pr.maxNeighbors pr.input s rs = .ok (ns, rs') ∧
    ∀ n ∈ ns, ∃ sc, Examined pr env Inv n sc ∧ Score.lt sc score = false

end Wassign.Spec
