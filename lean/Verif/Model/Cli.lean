import Verif.Model.Process
/-
options.rs:3-62, main.rs:29: the command line.

`Options::parse()` is generated by clap 4 from the attributes of the struct. The attributes (names, which options take a value, value
parsers, defaults) are modelled from options.rs; the rules by which clap reads arguments are modelled from its documented
behaviour, as its source is not in /repo: an argument that begins with a minus sign is never the value of the argument before
it; values can be attached; short flags can be combined; an option can be given once, `-i` (a `Vec`) any number of times; `--` ends
the options; there are no other arguments. Not modelled: the texts of help, version and error messages (all errors exit with 2),
the environment, arguments that are not Unicode.
-/
namespace Wassign
namespace Cli

/-- The arguments of options.rs:6-44 and the two that clap adds for `#[command(version)]`. -/
inductive Id where
  | input | output | any | prefExp | timeout | csTimeout | noCs | noCsSimp | threads | maxNeighbors | greedy | help | version
deriving DecidableEq, Repr

/-- options.rs:8-43 `short = ..` (`-h` and `-V`: clap). -/
def shortId (c : Char) : Option Id :=
  if c = 'i' then some .input
  else if c = 'o' then some .output
  else if c = 'a' then some .any
  else if c = 'p' then some .prefExp
  else if c = 't' then some .timeout
  else if c = 'j' then some .threads
  else if c = 'n' then some .maxNeighbors
  else if c = 'g' then some .greedy
  else if c = 'h' then some .help
  else if c = 'V' then some .version
  else none

/-- options.rs:8-43 `long = ..` (`--help` and `--version`: clap). -/
def longId (s : Str) : Option Id :=
  if s = "input".toList then some .input
  else if s = "output".toList then some .output
  else if s = "any".toList then some .any
  else if s = "pref-exp".toList then some .prefExp
  else if s = "timeout".toList then some .timeout
  else if s = "cs-timeout".toList then some .csTimeout
  else if s = "no-cs".toList then some .noCs
  else if s = "no-cs-simp".toList then some .noCsSimp
  else if s = "threads".toList then some .threads
  else if s = "max-neighbors".toList then some .maxNeighbors
  else if s = "greedy".toList then some .greedy
  else if s = "help".toList then some .help
  else if s = "version".toList then some .version
  else none

/-- Arguments with a value (fields that are not `bool`). -/
def takesValue : Id → Bool
  | .input | .output | .prefExp | .timeout | .csTimeout | .threads | .maxNeighbors => true
  | _ => false

/-- What the parser stops with: help or version is shown (exit status 0), or an error (exit status 2) or panic. -/
inductive Stop where
  | information
  | fault (f : Fault)
deriving DecidableEq, Repr

/-- The options so far and the arguments that were given. -/
structure State (F : Type) where
  opts : Opts F
  given : List Id
deriving DecidableEq, Repr

variable {F : Type}

/-- An error of clap. -/
def refuse {α : Type} : Except Stop α := .error (.fault (.error "command line"))

/-- `value_parser!(u32)`: an `i64` in the range of `u32`. -/
def u32Value (s : Str) : Except Stop Nat :=
  match parseI64 s with
  | some v => if 0 ≤ v ∧ v ≤ 4294967295 then .ok v.toNat else refuse
  | none => refuse

/-- options.rs:19, 22: `value_parser = Self::parse_time`. -/
def timeValue (env : OptEnv F) (s : Str) : Except Stop Int :=
  match Time.parse env.overflow s with
  | .ok v => .ok v
  | .error f => .error (.fault f)

/-- options.rs:16: `f64`. -/
def floatValue (env : OptEnv F) (s : Str) : Except Stop F :=
  match env.parseF s with
  | some x => .ok x
  | none => refuse

/-- options.rs:8-40: the field of an argument with a value. -/
def newValue (env : OptEnv F) (o : Opts F) (id : Id) (v : Str) : Except Stop (Opts F) :=
  match id with
  | .input => .ok { o with inputFiles := o.inputFiles ++ [v] }
  | .output => .ok { o with outputFile := some v }
  | .prefExp => do let x ← floatValue env v; .ok { o with prefExp := x }
  | .timeout => do let x ← timeValue env v; .ok { o with timeout := x }
  | .csTimeout => do let x ← timeValue env v; .ok { o with csTimeout := x }
  | .threads => do let x ← u32Value v; .ok { o with threads := x }
  | .maxNeighbors => do let x ← u32Value v; .ok { o with maxNeighbors := x }
  | _ => .ok o

/-- An argument with its value: it may be given once, except for `-i` (`Vec<String>`). -/
def setValue (env : OptEnv F) (st : State F) (id : Id) (v : Str) : Except Stop (State F) :=
  if id ≠ .input ∧ id ∈ st.given then refuse
  else do
    let opts ← newValue env st.opts id v
    .ok ⟨opts, id :: st.given⟩

/-- options.rs:13-43: the field of an argument without value. -/
def newFlag (o : Opts F) : Id → Opts F
  | .any => { o with any := true }
  | .noCs => { o with noCs := true }
  | .noCsSimp => { o with noCsSimp := true }
  | .greedy => { o with greedy := true }
  | _ => o

/-- An argument without value: `bool` fields, help and version. -/
def setFlag (st : State F) (id : Id) : Except Stop (State F) :=
  if id = .help ∨ id = .version then .error .information
  else if id ∈ st.given then refuse
  else .ok ⟨newFlag st.opts id, id :: st.given⟩

/-- Whether an argument can be the value of the one before it: it does not begin with a minus sign, or is a lone one. -/
def isValue (s : Str) : Bool := s.head? != some '-' || s == ['-']

/-- The value is the next argument. -/
def nextValue (env : OptEnv F) (st : State F) (id : Id) : List Str → Except Stop (State F × List Str)
  | v :: rest => if isValue v then do let st ← setValue env st id v; pure (st, rest) else refuse
  | [] => refuse

/-- Short arguments, after the minus sign. -/
def shorts (env : OptEnv F) (rest : List Str) : State F → Str → Except Stop (State F × List Str)
  | st, [] => pure (st, rest)
  | st, c :: cs =>
    match shortId c with
    | none => refuse
    | some id =>
      if takesValue id then
        match cs with
        | [] => nextValue env st id rest
        | '=' :: v => do let st ← setValue env st id v; pure (st, rest)
        | v => do let st ← setValue env st id v; pure (st, rest)
      else do
        let st ← setFlag st id
        shorts env rest st cs

/-- The name and the value of a long argument: the text before and after the first `=`. -/
def splitEq : Str → Str × Option Str
  | [] => ([], none)
  | c :: s => if c = '=' then ([], some s) else (c :: (splitEq s).1, (splitEq s).2)

/-- A long argument, after the two minus signs. -/
def long (env : OptEnv F) (rest : List Str) (st : State F) (s : Str) : Except Stop (State F × List Str) :=
  match longId (splitEq s).1, (splitEq s).2 with
  | none, _ => refuse
  | some id, none =>
    if takesValue id then nextValue env st id rest
    else do let st ← setFlag st id; pure (st, rest)
  | some id, some v =>
    if takesValue id then do let st ← setValue env st id v; pure (st, rest)
    else refuse

/-- The arguments (`fuel`: at least one for each). -/
def loop (env : OptEnv F) : Nat → State F → List Str → Except Stop (State F)
  | _, st, [] => pure st
  | 0, _, _ :: _ => .error (.fault (.panic "out of fuel"))
  | fuel + 1, st, arg :: rest =>
    match arg with
    | ['-', '-'] => if rest.isEmpty then pure st else refuse
    | '-' :: '-' :: s => do let (st, rest) ← long env rest st s; loop env fuel st rest
    | '-' :: c :: s => do let (st, rest) ← shorts env rest st (c :: s); loop env fuel st rest
    | _ => refuse

/-- options.rs:103-106 `default_thread_count`; the argument is the result of `available_parallelism()`. -/
def threadCount : Option Nat → Nat
  | some n => if n ≤ 4294967295 then n else 1
  | none => 1

/-- options.rs:12-43: the defaults of the attributes; `three` is the number 3.0 and `cores` the result of
`available_parallelism()`. The two times are texts that the parser reads like given values. -/
def defaults (env : OptEnv F) (three : F) (cores : Option Nat) : Except Stop (Opts F) := do
  let timeout ← timeValue env "60s".toList
  let csTimeout ← timeValue env "3s".toList
  pure ⟨[], none, false, three, timeout, csTimeout, false, false, threadCount cores, 12, false⟩

/-- options.rs:46-62 `Options::default()`. -/
def default (three : F) (cores : Option Nat) : Opts F :=
  ⟨[], none, false, three, 60, 3, false, false, threadCount cores, 12, false⟩

/-- main.rs:29 `Options::parse()`, without the name of the program. -/
def parse (env : OptEnv F) (three : F) (cores : Option Nat) (args : List Str) : Except Stop (Opts F) := do
  let opts ← defaults env three cores
  let st ← loop env args.length ⟨opts, []⟩ args
  pure st.opts

end Cli

namespace Process
open Main Threaded
variable {F σ : Type}

/-- main.rs:11-49 with the command line: exit status and effects (help and version texts are not counted as effects). -/
inductive RunsArgs (sys : Sys) (o : Outside F σ) (script : Str → Reader.Script) (three : F) (cores : Option Nat) (args : List Str) :
    Nat → List Effect → Prop
  | information : Cli.parse o.opt three cores args = .error .information → RunsArgs sys o script three cores args 0 []
  | refused {m : String} : Cli.parse o.opt three cores args = .error (.fault (.error m)) → RunsArgs sys o script three cores args 2 []
  | panicked {m : String} : Cli.parse o.opt three cores args = .error (.fault (.panic m)) → RunsArgs sys o script three cores args 101 []
  | ran {opts : Opts F} {code : Nat} {done : List Effect} : Cli.parse o.opt three cores args = .ok opts →
      Runs sys o script opts code done → RunsArgs sys o script three cores args code done

end Process
end Wassign
