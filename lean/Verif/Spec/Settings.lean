import Verif.Model.Options
/-
What a list of arguments asks for.
-/
namespace Wassign.Spec
variable {F : Type}

/-- One wish about the options. -/
inductive Setting (F : Type) where
  | input (file : Str)
  | output (file : Str)
  | any
  | prefExp (x : F)
  | timeout (seconds : Int)
  | csTimeout (seconds : Int)
  | noCs
  | noCsSimp
  | threads (n : Nat)
  | maxNeighbors (n : Nat)
  | greedy
  | information

/-- The options with that wish fulfilled: exactly one option changes. -/
def Setting.apply (o : Opts F) : Setting F → Opts F
  | .input f => { o with inputFiles := o.inputFiles ++ [f] }
  | .output f => { o with outputFile := some f }
  | .any => { o with any := true }
  | .prefExp x => { o with prefExp := x }
  | .timeout s => { o with timeout := s }
  | .csTimeout s => { o with csTimeout := s }
  | .noCs => { o with noCs := true }
  | .noCsSimp => { o with noCsSimp := true }
  | .threads n => { o with threads := n }
  | .maxNeighbors n => { o with maxNeighbors := n }
  | .greedy => { o with greedy := true }
  | .information => o

/-- `args` spells the given wishes. -/
inductive Spells (env : OptEnv F) : List Str → List (Setting F) → Prop
  | nil : Spells env [] []
  | input {a v rest ss} : a ∈ ["-i".toList, "--input".toList] → Spells env rest ss →
      Spells env (a :: v :: rest) (.input v :: ss)
  | output {a v rest ss} : a ∈ ["-o".toList, "--output".toList] → Spells env rest ss →
      Spells env (a :: v :: rest) (.output v :: ss)
  | any {a rest ss} : a ∈ ["-a".toList, "--any".toList] → Spells env rest ss → Spells env (a :: rest) (.any :: ss)
  | prefExp {a v x rest ss} : a ∈ ["-p".toList, "--pref-exp".toList] → env.parseF v = some x → Spells env rest ss →
      Spells env (a :: v :: rest) (.prefExp x :: ss)
  | timeout {a v s rest ss} : a ∈ ["-t".toList, "--timeout".toList] → Time.parse env.overflow v = .ok s →
      Spells env rest ss → Spells env (a :: v :: rest) (.timeout s :: ss)
  | csTimeout {v s rest ss} : Time.parse env.overflow v = .ok s → Spells env rest ss →
      Spells env ("--cs-timeout".toList :: v :: rest) (.csTimeout s :: ss)
  | noCs {rest ss} : Spells env rest ss → Spells env ("--no-cs".toList :: rest) (.noCs :: ss)
  | noCsSimp {rest ss} : Spells env rest ss → Spells env ("--no-cs-simp".toList :: rest) (.noCsSimp :: ss)
  | threads {a v n rest ss} : a ∈ ["-j".toList, "--threads".toList] → parseU32 v = some n → Spells env rest ss →
      Spells env (a :: v :: rest) (.threads n :: ss)
  | maxNeighbors {a v n rest ss} : a ∈ ["-n".toList, "--max-neighbors".toList] → parseU32 v = some n →
      Spells env rest ss → Spells env (a :: v :: rest) (.maxNeighbors n :: ss)
  | greedy {a rest ss} : a ∈ ["-g".toList, "--greedy".toList] → Spells env rest ss →
      Spells env (a :: rest) (.greedy :: ss)
  | information {a rest ss} : a ∈ ["-h".toList, "--help".toList, "--version".toList] → Spells env rest ss →
      Spells env (a :: rest) (.information :: ss)

end Wassign.Spec
