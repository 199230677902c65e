import Verif.Spec.Settings
import Verif.Spec.Numeral
/-
The command line (doc/src/Manual.md, section "Program options", and the usual conventions for options).
-/
namespace Wassign.Spec
variable {F : Type}

/-- `name` is a number of 32 bits. -/
def Number32 (text : Str) (n : Nat) : Prop := Numeral text n ∧ n ≤ 4294967295

/-- An option with a value: its short name, its long name, the value as text, and what it asks for. -/
inductive WithValue (env : OptEnv F) : Option Char → String → Str → Setting F → Prop
  | input {v : Str} : WithValue env (some 'i') "input" v (.input v)
  | output {v : Str} : WithValue env (some 'o') "output" v (.output v)
  | prefExp {v : Str} {x : F} : env.parseF v = some x → WithValue env (some 'p') "pref-exp" v (.prefExp x)
  | timeout {v : Str} {s : Int} : Time.parse env.overflow v = .ok s → WithValue env (some 't') "timeout" v (.timeout s)
  | csTimeout {v : Str} {s : Int} : Time.parse env.overflow v = .ok s → WithValue env none "cs-timeout" v (.csTimeout s)
  | threads {v : Str} {n : Nat} : Number32 v n → WithValue env (some 'j') "threads" v (.threads n)
  | maxNeighbors {v : Str} {n : Nat} : Number32 v n → WithValue env (some 'n') "max-neighbors" v (.maxNeighbors n)

/-- An option without value. -/
inductive Flag : Option Char → String → Setting F → Prop
  | any : Flag (some 'a') "any" .any
  | noCs : Flag none "no-cs" .noCs
  | noCsSimp : Flag none "no-cs-simp" .noCsSimp
  | greedy : Flag (some 'g') "greedy" .greedy

/-- Asking for help or the version. -/
inductive Asking : Char → String → Prop
  | help : Asking 'h' "help"
  | version : Asking 'V' "version"

/-- A value that is an argument of its own: it does not look like an option. -/
def Separate (v : Str) : Prop := v = "-".toList ∨ v.head? ≠ some '-'

/-- Short options in one argument: the text after the minus sign, the arguments that follow, what is asked for, the arguments that
are left. The last one may have a value, attached, after `=`, or as the next argument. -/
inductive Combined (env : OptEnv F) : Str → List Str → List (Setting F) → List Str → Prop
  | flag {c l s after} : Flag (some c) l s → Combined env [c] after [s] after
  | flags {c l s cs after ss rest} : Flag (some c) l s → Combined env cs after ss rest → Combined env (c :: cs) after (s :: ss) rest
  | attached {c l v s after} : WithValue env (some c) l v s → v ≠ [] → v.head? ≠ some '=' → Combined env (c :: v) after [s] after
  | equals {c l v s after} : WithValue env (some c) l v s → Combined env (c :: '=' :: v) after [s] after
  | next {c l v s after} : WithValue env (some c) l v s → Separate v → Combined env [c] (v :: after) [s] after

/-- A command line and what it asks for. -/
inductive Line (env : OptEnv F) : List Str → List (Setting F) → Prop
  | nil : Line env [] []
  | stop : Line env ["--".toList] []
  | short {cs after ss rest ss'} : Combined env cs after ss rest → Line env rest ss' → Line env (('-' :: cs) :: after) (ss ++ ss')
  | flag {c l s rest ss} : Flag c l s → Line env rest ss → Line env (("--".toList ++ l.toList) :: rest) (s :: ss)
  | value {c l v s rest ss} : WithValue env c l v s → Separate v → Line env rest ss →
      Line env (("--".toList ++ l.toList) :: v :: rest) (s :: ss)
  | equals {c l v s rest ss} : WithValue env c l v s → Line env rest ss →
      Line env (("--".toList ++ l.toList ++ "=".toList ++ v) :: rest) (s :: ss)

/-- Short flags and then help or version. -/
inductive CombinedHelp : Str → List (Setting F) → Prop
  | here {c l cs} : Asking c l → CombinedHelp (c :: cs) []
  | flags {c l s cs ss} : Flag (some c) l s → CombinedHelp cs ss → CombinedHelp (c :: cs) (s :: ss)

/-- A command line that asks for help or version (whatever follows), and what it asked for before. -/
inductive Help (env : OptEnv F) : List Str → List (Setting F) → Prop
  | here {c l rest} : Asking c l → Help env (("--".toList ++ l.toList) :: rest) []
  | combined {cs rest ss} : CombinedHelp cs ss → Help env (('-' :: cs) :: rest) ss
  | short {cs after ss rest ss'} : Combined env cs after ss rest → Help env rest ss' → Help env (('-' :: cs) :: after) (ss ++ ss')
  | flag {c l s rest ss} : Flag c l s → Help env rest ss → Help env (("--".toList ++ l.toList) :: rest) (s :: ss)
  | value {c l v s rest ss} : WithValue env c l v s → Separate v → Help env rest ss →
      Help env (("--".toList ++ l.toList) :: v :: rest) (s :: ss)
  | equals {c l v s rest ss} : WithValue env c l v s → Help env rest ss →
      Help env (("--".toList ++ l.toList ++ "=".toList ++ v) :: rest) (s :: ss)

/-- The option a setting is about. -/
def Setting.name : Setting F → String
  | .input _ => "input"
  | .output _ => "output"
  | .any => "any"
  | .prefExp _ => "pref-exp"
  | .timeout _ => "timeout"
  | .csTimeout _ => "cs-timeout"
  | .noCs => "no-cs"
  | .noCsSimp => "no-cs-simp"
  | .threads _ => "threads"
  | .maxNeighbors _ => "max-neighbors"
  | .greedy => "greedy"
  | .information => "help"

/-- No option is given twice, except for input files. -/
def Once (ss : List (Setting F)) : Prop := ss.Pairwise (fun s t => s.name = t.name → s.name = "input")

/-- The options if nothing is given: one thread for each core, or one if their number is not known. -/
def standard (three : F) (cores : Option Nat) : Opts F where
  inputFiles := []
  outputFile := none
  any := false
  prefExp := three
  timeout := 60
  csTimeout := 3
  noCs := false
  noCsSimp := false
  threads := cores.getD 1
  maxNeighbors := 12
  greedy := false

/-- A number of cores that fits into 32 bits. -/
def Cores (cores : Option Nat) : Prop := ∀ n, cores = some n → n ≤ 4294967295

/-- The files among what is asked for, in order. -/
def files : List (Setting F) → List Str
  | [] => []
  | .input f :: ss => f :: files ss
  | _ :: ss => files ss

end Wassign.Spec
