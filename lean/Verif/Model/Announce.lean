import Verif.Model.Display
/-
main.rs:51-126: what the program tells the user about a run (the messages of level info and above that `try_run` itself
writes; the messages of the solver session are in Status.lean).
-/
namespace Wassign
namespace Main

/-- main.rs:58-63. -/
def readLine (d : InputData) : Str :=
  "Read ".toList ++ natStr d.slots.length ++ " slot(s), ".toList ++ natStr d.choices.length ++ " choice(s) and ".toList ++
    natStr d.choosers.length ++ " chooser(s).".toList

/-- main.rs:64-68. -/
def foundLine (d : InputData) : Str :=
  "Found ".toList ++ natStr d.schedCons.length ++ " scheduling and ".toList ++ natStr d.asgCons.length ++ " assignment constraints.".toList

/-- main.rs:75-77. -/
def exponentLine : Str := "The preference exponent is too large; computations may cause an integer overflow".toList

variable {F σ : Type}

/-- main.rs:80-81. -/
def doAnalysis (opts : Opts F) (d : InputData) : Bool := !opts.noCs && !opts.greedy && decide (1 < d.slots.length)
def doSimplification (opts : Opts F) (d : InputData) : Bool := doAnalysis opts d && !opts.noCsSimp

/-- main.rs:85-93. -/
def analysisLine (opts : Opts F) (d : InputData) : Str :=
  if doAnalysis opts d then
    if doSimplification opts d then "Performing critical set analysis with simplification.".toList
    else "Performing critical set analysis without simplification.".toList
  else "Skipping critical set analysis.".toList

/-- main.rs:97-100. -/
def boundLine (p : Prepared) : Str :=
  "Critical set analysis gives a preference bound of ".toList ++ natStr p.analysis.preferenceBound ++ ".".toList

/-- main.rs:52-103: the messages before the search. `large e m n` is the test of main.rs:71-73 (in `f64`) for exponent, greatest preference
and number of choosers. -/
def saidBefore (o : Outside F σ) (large : F → Nat → Nat → Bool) (opts : Opts F) (script : Reader.Script) : List Str :=
  let read := Reader.readInput o.opt (Reader.new opts) script
  "Processing input.".toList ::
  match read.1 with
  | .error _ => []
  | .ok d =>
    let opts := Reader.effectiveOptions read.2
    [readLine d, foundLine d] ++ (if large opts.prefExp d.maxPref (satU32 d.choosers.length) then [exponentLine] else []) ++
    [analysisLine opts d] ++
    match prepare o d opts with
    | .error _ => []
    | .ok p => (if doAnalysis opts d then [boundLine p] else []) ++ ["Generating static data and starting solver.".toList]

/-- main.rs:107-119: the messages after the search. -/
def saidAfter (tie : Nat → Bool) (p : Prepared) (g : Threaded.Session σ ASolver (σ × Nat)) : List Str :=
  match scoreShown tie p g with
  | .error _ => []
  | .ok none => ["No solution found.".toList]
  | .ok (some s) => ["Solution found.".toList, "Solution score: ".toList ++ s]

end Main
end Wassign
