import Verif.Model.Process
/-
Vocabulary for what a process reads and leaves behind.
-/
namespace Wassign.Spec
open Wassign Process

/-- `text` is what the program is given to read: the texts of the input files, one after the other, each followed by a line
feed; without input files, standard input. -/
def GivenText (sys : Sys) (files : List Str) (text : Str) : Prop :=
  (files = [] ∧ sys.stdin = some text) ∨
  (files ≠ [] ∧ ∃ contents : List Str, files.map sys.file = contents.map some ∧ text = (contents.map (fun c => c ++ "\n".toList)).flatten)

/-- The text that is left in the file at `path`, if `before` are the texts of the files when the process starts. After a failed
write the file may contain anything: then nothing is said (`none`). Different paths are taken to be different files. -/
def contentAfter (before : Str → Option Str) (effects : List Effect) (path : Str) : Option Str :=
  effects.foldl (fun content e =>
    match e with
    | .wrote p text => if p = path then some text else content
    | .writeFailed p => if p = path then none else content
    | .printed _ => content
    | .printFailed => content) (before path)

/-- Everything that went to standard output. -/
def printedText (effects : List Effect) : Str :=
  (effects.map (fun e =>
    match e with
    | .printed text => text
    | _ => [])).flatten

/-- The process wrote, or failed to write, this file. -/
def Touches (effects : List Effect) (path : Str) : Prop :=
  (∃ text, Effect.wrote path text ∈ effects) ∨ Effect.writeFailed path ∈ effects

/-- The process did nothing but this: it wrote the tables to the files with the given prefix, or to standard output if there is no
prefix. -/
def Delivered (outputFile : Option Str) (sched : Option Str) (asg : Str) (effects : List Effect) : Prop :=
  match outputFile with
  | some pre =>
    effects = (sched.map (fun s => Effect.wrote (pre ++ ".scheduling.csv".toList) s)).toList ++
      [Effect.wrote (pre ++ ".assignment.csv".toList) asg]
  | none =>
    effects = (sched.map (fun s => Effect.printed (s ++ "\n\n".toList))).toList ++ [Effect.printed (asg ++ "\n\n".toList)]

/-- An effect that failed. -/
def Failed (e : Effect) : Prop := (∃ path, e = .writeFailed path) ∨ e = .printFailed

/-- The process began to deliver the tables and stopped at the first failure. -/
def BrokenOff (outputFile : Option Str) (sched : Option Str) (asg : Str) (effects : List Effect) : Prop :=
  ∃ full done rest x e, Delivered outputFile sched asg full ∧ full = done ++ x :: rest ∧ effects = done ++ [e] ∧ Failed e

end Wassign.Spec
