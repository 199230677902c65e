import Verif.Model.Lp
import Verif.Spec.Backend
/-
What an integer program means, and what is assumed of a solver for integer programs.
-/
namespace Wassign.Spec
open Lp

/-- The value of a linear expression. -/
def lin (terms : List (Int × Nat)) (z : List Int) : Int := (terms.map (fun t => t.1 * val z t.2)).sum

/-- `z` is a solution of the program: a whole number for every variable, within its bounds, and all equations hold. -/
structure Solves (p : Program) (z : List Int) : Prop where
  len : z.length = p.vars.length
  bounds : ∀ k v, p.vars[k]? = some v → v.lo ≤ val z k ∧ val z k ≤ v.hi
  rows : ∀ r ∈ p.rows, lin r.terms z = r.rhs

/-- ... with the least objective. -/
def Best (p : Program) (z : List Int) : Prop := Solves p z ∧ ∀ y, Solves p y → lin p.objective z ≤ lin p.objective y

/-- The reported value of every variable is nearer to that of `z` than one half (solvers work with a tolerance). -/
def Near (values : List Rat) (z : List Int) : Prop :=
  ∀ k, k < z.length → (values[k]?.getD 0) - (val z k : Rat) < 1 / 2 ∧ (val z k : Rat) - (values[k]?.getD 0) < 1 / 2

/-- A solver of integer programs. -/
abbrev MipSolver := Nat → Program → Option Nat → Answer

/-- What it reports as optimal is an optimal solution, up to its tolerance. -/
def MipSolver.Accurate (s : MipSolver) : Prop :=
  ∀ n p limit values, s n p limit = .found true values → ∃ z, Best p z ∧ Near values z

/-- Without a time limit it reports an optimal solution unless there is no solution. -/
def MipSolver.Decides (s : MipSolver) : Prop :=
  ∀ n p, (∀ values, s n p none ≠ .found true values) → ∀ z, ¬ Solves p z

/-- ... and also with one. -/
def MipSolver.Quick (s : MipSolver) : Prop :=
  ∀ n p limit, (∀ values, s n p limit ≠ .found true values) → ∀ z, ¬ Solves p z

/-- A whole number that a 64-bit floating point number can represent: at most 53 significant bits (then zeros). The cost of
a preference is such a number cut off to a 64-bit integer (assignment_solver.rs:399-401), so it is one, unless it is
beyond the integers. -/
def Representable (c : Int) : Prop := ∃ m e : Nat, c.natAbs = m * 2^e ∧ m < 2^53

end Wassign.Spec
