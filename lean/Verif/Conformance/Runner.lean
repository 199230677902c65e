import Verif.Model.Lp
import Verif.Props.Threaded
import Verif.Props.Main
import Verif.Examples
/-
A computable way to run the model, used to replay the tests of the repository (the files of this directory). Nothing here is used by
a theorem about the program.
-/
namespace Wassign.Conf
open Lp Reader Main Threaded

/-! ## A small exact solver for integer programs -/

/-- A row during the search: what is missing, and the least and greatest contribution of the variables not yet chosen. -/
structure Open where
  miss : Int
  lo : Int
  hi : Int

def coeff (r : Row) (k : Nat) : Int := (r.terms.map (fun t => if t.2 = k then t.1 else 0)).sum

/-- A variable with its cost and its column. -/
structure Col where
  var : Var
  cost : Int
  col : List Int

def columns (p : Program) : List Col :=
  p.vars.zipIdx.map (fun v => ⟨v.1, (p.objective.map (fun t => if t.2 = v.2 then t.1 else 0)).sum, p.rows.map (fun r => coeff r v.2)⟩)

/-- The least and greatest contribution of a variable to a row. -/
def span (v : Var) (c : Int) : Int × Int := if 0 ≤ c then (c * v.lo, c * v.hi) else (c * v.hi, c * v.lo)

def opened (p : Program) (cols : List Col) : List Open :=
  p.rows.zipIdx.map (fun r =>
    let spans := cols.map (fun c => span c.var (c.col[r.2]?.getD 0))
    ⟨r.1.rhs, (spans.map (·.1)).sum, (spans.map (·.2)).sum⟩)

/-- Give a variable the value `x`: the rows then, unless one cannot be met any more. -/
def assign (v : Var) (x : Int) : List Int → List Open → Option (List Open)
  | c :: cs, r :: rs =>
    let s := span v c
    let miss := r.miss - c * x
    let lo := r.lo - s.1
    let hi := r.hi - s.2
    if lo ≤ miss ∧ miss ≤ hi then (assign v x cs rs).map (⟨miss, lo, hi⟩ :: ·) else none
  | _, _ => some []

def better (a b : Option (Int × List Int)) : Option (Int × List Int) :=
  match a, b with
  | none, b => b
  | a, none => a
  | some x, some y => if y.1 < x.1 then some y else some x

/-- Try the values `x, x + 1, ...` (`n` of them). -/
def values (f : Int → Option (Int × List Int)) : Nat → Int → Option (Int × List Int)
  | 0, _ => none
  | n + 1, x => better (f x) (values f n (x + 1))

/-- A cheapest choice for the remaining variables. -/
def search : List Col → List Open → Option (Int × List Int)
  | [], rows => if rows.all (fun r => r.miss == 0) then some (0, []) else none
  | c :: cs, rows =>
    values (fun x =>
      match assign c.var x c.col rows with
      | none => none
      | some rows' => (search cs rows').map (fun r => (c.cost * x + r.1, x :: r.2))) ((c.var.hi - c.var.lo + 1).toNat) c.var.lo

def solver (_ : Nat) (p : Program) (_ : Option Nat) : Answer :=
  let cols := columns p
  match search cols (opened p cols) with
  | none => .failed
  | some r => .found true (r.2.map (fun (x : Int) => (x : Rat)))

/-! ## Scripts -/

/-- A call whose answer is an object used from here on; a failure ends the script. -/
def obj (op : Op) (next : Nat → Script) : Script := .call op (fun
  | some (.ref id) => next id
  | _ => .fail)
def acc (op : Op) (next : Accessor → Script) : Script := .call op (fun
  | some (.accessor a) => next a
  | _ => .fail)
def expr (op : Op) (next : CExpr → Script) : Script := .call op (fun
  | some (.expr e) => next e
  | _ => .fail)
def call (op : Op) (next : Script) : Script := .call op (fun
  | some _ => next
  | none => .fail)

def tag (r : R Tagged) (next : Tagged → Script) : Script :=
  match r with
  | .ok t => next t
  | .error _ => .fail

/-! ## Runs -/

/-- The default options of the tests, with a single worker. -/
def opts : Opts Unit := ⟨[], none, false, (), 1, 3, false, false, 1, 12, false⟩

/-- Every worker does `n` iterations. -/
def outside (n : Nat) : Outside Unit Nat where
  opt := ⟨fun _ => none, .wraps⟩
  powf := fun x _ => F32.mul x (F32.mul x x)
  toF32 := fun _ => F32.ofU32 3
  cost := fun _ x => ((x + 1 : Nat) : Int) ^ 3
  rng := Ex.counter
  engine := fun b => b.toNat
  seed := 12
  draws := 10
  backend := fun _ => lpBackend solver (fun _ => 1)
  lateAsg := fun _ _ => false
  lateHill := fun _ _ => false
  lateIter := fun _ k => decide (n ≤ k)
  lateSearch := fun _ _ _ _ => false

/-- Why an input is rejected (or the site of a panic). -/
def fault : Fault → String
  | .error s => s
  | .panic s => "panic: " ++ s

/-- Reading an input. -/
def parse (o : Opts Unit) (s : Script) : R InputData := (readInput (outside 0).opt (new o) s).1

/-- A run of the whole program with `n` iterations. -/
def run (n : Nat) (o : Opts Unit) (s : Script) : R Output := do
  let w := outside n
  let r := readInput w.opt (new o) s
  let d ← r.1
  let eff := effectiveOptions r.2
  let p ← Main.prepare w d eff
  let cfg := setup w p eff
  report p (ThEx.exec cfg ((List.replicate (3 * n + 3) (List.range (workerCount cfg))).flatten) (start cfg))

/-- An error is reported. -/
def rejects {α : Type} : R α → Bool
  | .error (.error _) => true
  | _ => false

/-- What the program prints (`none`: nothing). -/
def printed : R Output → String ⊕ String
  | .error f => .inl (fault f)
  | .ok .noSolution => .inr ""
  | .ok (.tables none a) => .inr (String.ofList a ++ "\n\n")
  | .ok (.tables (some s) a) => .inr (String.ofList s ++ "\n\n" ++ String.ofList a ++ "\n\n")

/-- The input, if it is accepted. -/
def data (s : Script) : InputData :=
  match parse opts s with
  | .ok d => d
  | .error _ => default

/-- `prepared_problem`, for the tests of the sub-solvers. -/
def ready (s : Script) : R Prepared := do
  let d ← parse opts s
  Main.prepare (outside 0) d opts

/-- The first `n` schedulings of the scheduling solver (`none` if there are not that many). -/
def schedulingsGo (p : Prepared) : Nat → Nat × Nat → R (Option (List Scheduling))
  | 0, _ => pure (some [])
  | n + 1, r => do
    let x ← source Ex.counter p.input 3 p.analysis.preferenceBound p.analysis.forPreference (fun _ _ _ => false) r
    match x.1 with
    | none => pure none
    | some s => do
      let rest ← schedulingsGo p n x.2
      pure (rest.map (s :: ·))

def schedulings (n : Nat) (s : Script) : List Scheduling :=
  match ready s with
  | .ok p =>
    match schedulingsGo p n (12, 0) with
    | .ok (some l) => l
    | _ => []
  | .error _ => []

/-- `n` schedulings are found, and all of them pass the test. -/
def allSchedulings (n : Nat) (s : Script) (test : Scheduling → Bool) : Bool :=
  (schedulings n s).length == n && (schedulings n s).all test

/-- The assignment solver for a scheduling: the assignment found, with the names of the choices of every chooser. -/
def assigned (s : Script) (sch : Scheduling) : Option (List (List String)) :=
  match ready s with
  | .error _ => none
  | .ok p =>
    match Asg.solveUntil (asgProblem (outside 0) p opts) (asgEnv (outside 0) 0) false ASolver.new sch with
    | .ok (some a, _) => some (a.map (fun row => row.map (fun c => String.ofList ((p.input.choices[c]?.map (·.name)).getD []))))
    | _ => none

/-- The first table. -/
def schedule : R Output → Option String
  | .ok (.tables (some s) _) => some (String.ofList s)
  | _ => none

end Wassign.Conf
