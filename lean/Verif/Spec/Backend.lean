import Verif.Model.AssignmentSolver
import Verif.Spec.Assign
import Verif.Spec.WF
/-
The linear program of mip_flow.rs and what is assumed of the MIP backend that solves it. None of this is
an axiom: the contracts are hypotheses of the theorems that need them, and `Props/Assignment.lean` shows
that they can be met.
-/
namespace Wassign.Spec

/-- The value of edge variable `e`. -/
def val (x : List Int) (e : Nat) : Int := x[e]?.getD 0

/-- mip_flow.rs:118-179: `x` satisfies all constraints of the program (variable bounds 120-132, one binary
switch per group 141-159, blocked edges 161-163, flow conservation 165-179). -/
structure FlowOk (f : MipFlow) (x : List Int) : Prop where
  len : x.length = f.edgeCount
  lower : ∀ e, e < f.edgeCount → 0 ≤ val x e
  upper : ∀ e m, f.edgesMax[e]? = some m → val x e ≤ m
  groups : ∀ g ∈ f.groups, ∃ b : Int, (b = 0 ∨ b = 1) ∧ ∀ e ∈ g, val x e = b
  blocked : ∀ e ∈ f.blocked, val x e = 0
  conserve : ∀ n, n < f.nodeCount → ∀ inc out sup, f.incoming[n]? = some inc → f.outgoing[n]? = some out →
    f.supply[n]? = some sup → (inc.map (val x)).sum - (out.map (val x)).sum = -sup

/-- mip_flow.rs:134-139: the objective. -/
def flowCost (f : MipFlow) (x : List Int) : Int :=
  ((List.range f.edgeCount).map (fun e => (f.edgesCost[e]?.getD 0) * val x e)).sum

/-- A backend, as in `AEnv`. -/
abbrev Backend := Nat → MipFlow → Bool → Option (List Int)

/-- The backend only returns solutions of the program. -/
def Backend.Sound (b : Backend) : Prop := ∀ n f limited x, b n f limited = some x → FlowOk f x

/-- ... that are optimal. -/
def Backend.Optimal (b : Backend) : Prop :=
  ∀ n f limited x, b n f limited = some x → ∀ y, FlowOk f y → flowCost f x ≤ flowCost f y

/-- Without a time limit the backend finds a solution if there is one. -/
def Backend.Complete (b : Backend) : Prop :=
  ∀ n f, b n f false = none → ∀ y, ¬ FlowOk f y

/-- ... and with a time limit, too: it never runs out of time. -/
def Backend.Timely (b : Backend) : Prop :=
  ∀ n f limited, b n f limited = none → ∀ y, ¬ FlowOk f y

/-- What the solver is given: static data made from well-formed input of representable size. -/
structure ProblemOk (pr : AProblem) : Prop where
  static : StaticData.new pr.input = .ok pr.static
  wf : WF pr.input
  small : pr.input.np * pr.input.ns + pr.input.nc + pr.input.ns ≤ u32Max
  groups : GroupsMean pr.input

/-- The solver states that a sequence of solve calls can lead to; the Boolean tells that none of the calls
had a deadline. -/
inductive Reach (pr : AProblem) (env : AEnv) : Bool → ASolver → Prop
  | new : Reach pr env true ASolver.new
  | step {free deadline : Bool} {sv sv' : ASolver} {s : Scheduling} {r : Option Assignment} : Reach pr env free sv →
      SchedShape pr.input s → Asg.solveUntil pr env deadline sv s = .ok (r, sv') → Reach pr env (free && !deadline) sv'

end Wassign.Spec
