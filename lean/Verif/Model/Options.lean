import Verif.Model.Expr
/-
options.rs: options and time strings; rhai_interface.rs:469-545: `set_arguments`.
-/
namespace Wassign

/-- What `i32` arithmetic does on overflow: panic (debug builds) or wrap around (release builds). -/
inductive Overflow where
  | panics
  | wraps
deriving DecidableEq, Repr

/-- The `i32` with the low 32 bits of `x` (`x as i32`, wrapping arithmetic). -/
def asI32 (x : Int) : Int := Int.bmod x 4294967296

/-- The result of an unchecked `i32` operation whose mathematical value is `x`. -/
def i32Op (o : Overflow) (x : Int) (site : String) : R Int :=
  match o with
  | .panics => chkI32 x site
  | .wraps => pure (asI32 x)

namespace Time

/-- options.rs:79-82: `current.checked_mul(10).and_then(|v| v.checked_add(digit))`. -/
def pushDigit (current : Int) (c : Char) : R Int :=
  if current * 10 ≤ 2147483647 ∧ current * 10 + ((c.toNat : Int) - 48) ≤ 2147483647 then
    pure (current * 10 + ((c.toNat : Int) - 48))
  else .error (.error "Unknown time specifier.")

/-- options.rs:85-96: the seconds of a unit letter. -/
def multiplier (c : Char) : Option Int :=
  if c = 's' then some 1
  else if c = 'm' then some 60
  else if c = 'h' then some (60 * 60)
  else if c = 'd' then some (60 * 60 * 24)
  else if c = 'w' then some (60 * 60 * 24 * 7)
  else none

/-- options.rs:78-104: the loop over the characters; letters that are no unit and all other characters are
rejected alike. -/
def go (o : Overflow) : Int → Int → Str → R Int
  | total, _, [] => pure total
  | total, current, c :: rest =>
    if isDigit c then do
      let current ← pushDigit current c
      go o total current rest
    else
      match multiplier c with
      | some m => do
        let x ← i32Op o (current * m) "current * multiplier"
        let total ← i32Op o (total + x) "total += .."
        go o total 0 rest
      | none => .error (.error "Unknown time specifier.")

/-- options.rs:65-100 `Options::parse_time`. -/
def parse (o : Overflow) (s : Str) : R Int := go o 0 0 s

end Time

/-- options.rs:6-44 `Options`; `F` is the type of f64 values. -/
structure Opts (F : Type) where
  inputFiles : List Str
  outputFile : Option Str
  any : Bool
  prefExp : F
  timeout : Int
  csTimeout : Int
  noCs : Bool
  noCsSimp : Bool
  threads : Nat
  maxNeighbors : Nat
  greedy : Bool
deriving DecidableEq, Repr

/-- What the options code gets from the platform: `str::parse::<f64>` and the overflow behaviour of the build. -/
structure OptEnv (F : Type) where
  parseF : Str → Option F
  overflow : Overflow

/-- `str::parse::<u32>`. -/
def parseU32 (s : Str) : Option Nat := parseUnsigned u32Max s

/-- The value after an argument that needs one: `iter.next().ok_or_else(..)`. -/
def needValue : List Str → R (Str × List Str)
  | [] => .error (.error "Missing value.")
  | v :: rest => pure (v, rest)

/-- `.map_err(..)?` on a parse result. -/
def orErr {α : Type} (x : Option α) (msg : String) : R α :=
  match x with
  | some a => pure a
  | none => .error (.error msg)

/-- rhai_interface.rs:485-540: one turn of the argument loop: the argument `arg`, the arguments after it, the options
so far. Returns the arguments still to be read. -/
def argStep {F : Type} (env : OptEnv F) (next : Opts F) (arg : Str) (rest : List Str) : R (Opts F × List Str) :=
  if arg = "-i".toList ∨ arg = "--input".toList then do
    let (v, rest) ← needValue rest
    pure ({ next with inputFiles := next.inputFiles ++ [v] }, rest)
  else if arg = "-o".toList ∨ arg = "--output".toList then do
    let (v, rest) ← needValue rest
    pure ({ next with outputFile := some v }, rest)
  else if arg = "-a".toList ∨ arg = "--any".toList then pure ({ next with any := true }, rest)
  else if arg = "-p".toList ∨ arg = "--pref-exp".toList then do
    let (v, rest) ← needValue rest
    let x ← orErr (env.parseF v) "invalid float"
    pure ({ next with prefExp := x }, rest)
  else if arg = "-t".toList ∨ arg = "--timeout".toList then do
    let (v, rest) ← needValue rest
    let x ← Time.parse env.overflow v
    pure ({ next with timeout := x }, rest)
  else if arg = "--cs-timeout".toList then do
    let (v, rest) ← needValue rest
    let x ← Time.parse env.overflow v
    pure ({ next with csTimeout := x }, rest)
  else if arg = "--no-cs".toList then pure ({ next with noCs := true }, rest)
  else if arg = "--no-cs-simp".toList then pure ({ next with noCsSimp := true }, rest)
  else if arg = "-j".toList ∨ arg = "--threads".toList then do
    let (v, rest) ← needValue rest
    let x ← orErr (parseU32 v) "invalid number"
    pure ({ next with threads := x }, rest)
  else if arg = "-n".toList ∨ arg = "--max-neighbors".toList then do
    let (v, rest) ← needValue rest
    let x ← orErr (parseU32 v) "invalid number"
    pure ({ next with maxNeighbors := x }, rest)
  else if arg = "-g".toList ∨ arg = "--greedy".toList then pure ({ next with greedy := true }, rest)
  else if arg = "-h".toList ∨ arg = "--help".toList ∨ arg = "--version".toList then pure (next, rest)
  else .error (.error "Unknown argument.")

/-- rhai_interface.rs:483-541: the argument loop (`fuel`: one turn per argument at most). -/
def argLoop {F : Type} (env : OptEnv F) : Nat → Opts F → List Str → R (Opts F)
  | _, next, [] => pure next
  | 0, _, _ :: _ => panic' "out of fuel"
  | fuel + 1, next, arg :: rest => do
    let (next, rest) ← argStep env next arg rest
    argLoop env fuel next rest

/-- A Rhai value as far as the interface looks at it. -/
inductive Dyn where
  | int (v : Int)
  | int32 (v : Int)
  | str (s : Str)
  | other
deriving DecidableEq, Repr

/-- rhai_interface.rs:472-478: `try_cast::<String>()` on every argument. -/
def dynStr : Dyn → R Str
  | .str s => pure s
  | _ => .error (.error "set_arguments expects strings.")

/-- A Rust function on mutable state `σ`: whatever it has changed stays changed when it fails. -/
def M (σ α : Type) : Type := σ → R α × σ

namespace M
variable {σ α β : Type}

def pure (a : α) : M σ α := fun s => (.ok a, s)

def bind (m : M σ α) (f : α → M σ β) : M σ β := fun s =>
  match m s with
  | (.ok a, s') => f a s'
  | (.error e, s') => (.error e, s')

instance : Monad (M σ) where
  pure := pure
  bind := bind

/-- A computation that does not touch the state. -/
def lift (x : R α) : M σ α := fun s => (x, s)

/-- Reading and writing the state. -/
def get : M σ σ := fun s => (.ok s, s)
def set (s : σ) : M σ Unit := fun _ => (.ok (), s)

end M

/-- rhai_interface.rs:469-545 `set_arguments`: works on a copy of the options, stored back at the end. -/
def setArguments {F : Type} (env : OptEnv F) (args : List Dyn) : M (Opts F) Unit := do
  let values ← M.lift (args.mapM dynStr)
  let parsed ← M.get
  let next ← M.lift (argLoop env values.length parsed values)
  M.set next

end Wassign
