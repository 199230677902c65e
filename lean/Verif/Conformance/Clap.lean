import Verif.Props.Cli
/-
tests/cli_test.rs, tests/e2e_cli_args.rs: the tests about the command line, replayed on the model of the parser (written by hand).
-/
namespace Wassign.Conf.Clap
open CliEx Cli

/-- The parser refuses the arguments. -/
def Refused (args : List String) : Prop := ∃ m, line args = .error (.fault (.error m))

instance (args : List String) : Decidable (Refused args) :=
  match h : line args with
  | .error (.fault (.error m)) => isTrue ⟨m, h⟩
  | .ok _ => isFalse (fun ⟨m, e⟩ => by rw [h] at e; cases e)
  | .error .information => isFalse (fun ⟨m, e⟩ => by rw [h] at e; cases e)
  | .error (.fault (.panic _)) => isFalse (fun ⟨m, e⟩ => by rw [h] at e; cases e)

/-! help_lists_supported_flags_without_verbosity, version_reports_the_binary_version -/
example : line ["--help"] = .error .information ∧ line ["--version"] = .error .information := by decide +kernel
/-! legacy_verbosity_flag_is_rejected -/
example : Refused ["-v"] := by decide +kernel
/-! invalid_timeout_string_is_rejected -/
example : Refused ["--timeout", "1x"] := by decide +kernel
/-! compound_timeout_string_is_accepted -/
example : line ["--timeout", "1d30m"] = .ok { Spec.standard 3 (some 8) with timeout := 88200 } := by decide +kernel
/-! invalid_critical_set_timeout_string_is_rejected -/
example : Refused ["--timeout", "1s", "--cs-timeout", "1x"] := by decide +kernel
/-! zero_timeout_still_exits_cleanly -/
example : line ["--timeout", "0s"] = .ok { Spec.standard 3 (some 8) with timeout := 0 } := by decide +kernel
/-! invalid_thread_count_value_is_rejected, invalid_preference_exponent_value_is_rejected, invalid_max_neighbors_value_is_rejected -/
example : Refused ["--threads", "nope", "--timeout", "1s"] ∧ Refused ["--pref-exp", "nope", "--timeout", "1s"] ∧
    Refused ["--max-neighbors", "nope", "--timeout", "1s"] := by decide +kernel
/-! output_prefix_writes_expected_csv_files -/
example : line ["--input", "cli-input.wassign", "--output", "cli-output", "--timeout", "1s"] =
    .ok { Spec.standard 3 (some 8) with inputFiles := ["cli-input.wassign".toList], outputFile := some "cli-output".toList, timeout := 1 } := by
  decide +kernel
/-! single_thread_mode_preserves_the_public_solution_on_a_stable_instance and the tests that accept a flag -/
example : ∀ args ∈ [["--threads", "1"], ["--max-neighbors", "1"], ["--greedy"], ["--no-cs"], ["--no-cs-simp"]], (line args).isOk = true := by
  decide +kernel

end Wassign.Conf.Clap
