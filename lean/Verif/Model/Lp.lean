import Verif.Model.MipFlow
import Verif.Model.Float
/-
mip_flow.rs:117-193: the integer program built for a flow, and how the answer of the MIP solver is read.

The solver itself (good_lp, microlp) is a parameter: it gets a program and answers with numbers. Floating point numbers
that occur here are rational numbers (not-a-number and infinities are not modelled); the conversions to `f64` are exact
for 32-bit integers and modelled for 64-bit integers.
-/
namespace Wassign
namespace Lp

/-- `variable().integer().min(lo).max(hi)`; `variable().binary()` is the one from 0 to 1. Variables are numbered in the
order in which they are added. -/
structure Var where
  lo : Int
  hi : Int
deriving DecidableEq, Repr

/-- `constraint!(sum == rhs)`: the sum of coefficients times variables. -/
structure Row where
  terms : List (Int × Nat)
  rhs : Int
deriving DecidableEq, Repr

/-- What is handed to the solver: `vars.minimise(objective)` and the constraints added by `with`. -/
structure Program where
  vars : List Var
  objective : List (Int × Nat)
  rows : List Row
deriving DecidableEq, Repr

/-- The answer of the solver: an error (for example for an infeasible program), or a value for every variable, with a
status that is optimal or not. -/
inductive Answer where
  | failed
  | found (optimal : Bool) (values : List Rat)

/-- `v as f64` for an `i64`: rounding to 53 significant bits, ties to even. The result is always a whole number. -/
def f64OfI64 (v : Int) : Int :=
  let e := Nat.log2 v.natAbs - 52
  let m : Nat := F32.nearest v.natAbs (2^e) * 2^e
  if v < 0 then -(m : Int) else (m : Int)

/-- `f64::round`: to the nearest whole number, ties away from zero. -/
def roundHalf (q : Rat) : Int := if 0 ≤ q then (q + 1 / 2).floor else -(-q + 1 / 2).floor

/-- `v as i32` of a whole `f64`: values out of range become the nearest value in range. -/
def satI32 (v : Int) : Int := max (-2147483648) (min 2147483647 v)

end Lp

namespace MipFlow
open Lp

/-- mip_flow.rs:119-132: the variables of the edges. -/
def edgeVars (f : MipFlow) : List Var := f.edgesMax.map (fun m => ⟨0, m⟩)

/-- `edge_variables[edge]`: its number. -/
def edgeVar (f : MipFlow) (edge : Nat) : R Nat :=
  if edge < f.edgeCount then pure edge else panic' "edge_variables[edge]"

/-- mip_flow.rs:134-139: the objective. -/
def objective (f : MipFlow) : R (List (Int × Nat)) :=
  (List.range f.edgeCount).mapM (fun e => do
    let c ← idx f.edgesCost e "edges_cost[index]"
    pure (f64OfI64 c, e))

/-- mip_flow.rs:141-144: the switches of the groups. -/
def switches (f : MipFlow) : List Var := f.groups.map (fun _ => ⟨0, 1⟩)

/-- mip_flow.rs:153-159: the constraints of one group; the switch of group `g` is variable number `edge_count + g`. -/
def groupRows (f : MipFlow) (g : List Nat × Nat) : R (List Row) :=
  g.1.mapM (fun e => do
    let v ← f.edgeVar e
    pure ⟨[(1, v), (-1, f.edgeCount + g.2)], 0⟩)

/-- mip_flow.rs:161-163: the constraint of a blocked edge. -/
def blockedRow (f : MipFlow) (e : Nat) : R Row := do
  let v ← f.edgeVar e
  pure ⟨[(1, v)], 0⟩

/-- mip_flow.rs:165-179: the constraint of one node. -/
def nodeRow (f : MipFlow) (n : Nat) : R Row := do
  let inc ← idx f.incoming n "incoming[node]"
  let out ← idx f.outgoing n "outgoing[node]"
  let inc' ← inc.mapM f.edgeVar
  let out' ← out.mapM f.edgeVar
  let s ← idx f.supply n "supply[node]"
  pure ⟨inc'.map (fun v => (1, v)) ++ out'.map (fun v => (-1, v)), -s⟩

/-- mip_flow.rs:118-179: the program. -/
def program (f : MipFlow) : R Program := do
  let obj ← f.objective
  let gs ← f.groups.zipIdx.mapM f.groupRows
  let bs ← f.blocked.mapM f.blockedRow
  let ns ← (List.range f.nodeCount).mapM f.nodeRow
  pure ⟨f.edgeVars ++ f.switches, obj, gs.flatten ++ bs ++ ns⟩

/-- mip_flow.rs:117-193 `solve`; the time limit is in nanoseconds. With a time limit of zero the constraints are not built
(lines 146-149; here the program is still built, which makes no difference unless building it panics). -/
def solve (solver : Program → Option Nat → Answer) (f : MipFlow) (limit : Option Nat) : R (Bool × MipFlow) := do
  let p ← f.program
  if limit = some 0 then pure (false, f)
  else
    match solver p limit with
    | .failed => pure (false, f)
    | .found false _ => pure (false, f)
    | .found true values =>
      pure (true, { f with solution := (List.range f.edgeCount).map (fun e => satI32 (roundHalf (values[e]?.getD 0))) })

end MipFlow

/-- The backend of the assignment solver (`AEnv`) that `MipFlow.solve` makes of a MIP solver: `limit n` is the time left at
the n-th call (assignment_solver.rs:434-439). A panic while the program is built is not a case of a backend; it does not
occur (C75). -/
def lpBackend (solver : Nat → Lp.Program → Option Nat → Lp.Answer) (limit : Nat → Nat) (n : Nat) (f : MipFlow)
    (limited : Bool) : Option (List Int) :=
  match f.solve (solver n) (if limited then some (limit n) else none) with
  | .ok (true, f') => some f'.solution
  | _ => none

end Wassign
